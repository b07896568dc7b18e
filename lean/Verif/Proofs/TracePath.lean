import Verif.Proofs.Winding
/-
The order in which a boundary is followed: which pixels are visited and which neighbours are looked at.
-/
namespace Boof
variable {e : Bool} {B : Pix → Bool} {w h : Nat}

/-- Does the state look at a black neighbour? -/
def isBlk (e : Bool) (B : Pix → Bool) (t : St) : Bool := B (nb e t.1 t.2)

/-- Pixels of the states looking at a black neighbour, among the first `k` states from `s`. -/
def blk (e : Bool) (B : Pix → Bool) (s : St) : Nat → List Pix
  | 0 => []
  | k + 1 => blk e B s k ++ (if isBlk e B ((mu e B)^[k] s) then [((mu e B)^[k] s).1] else [])

theorem blk_add (s : St) (a b : Nat) : blk e B s (a + b) = blk e B s a ++ blk e B ((mu e B)^[a] s) b := by
  induction b with
  | zero => simp [blk]
  | succ b ih =>
    rw [← Nat.add_assoc, blk, ih, blk, List.append_assoc, ← Function.iterate_add_apply, Nat.add_comm b a]

theorem blk_white (s : St) (a : Nat) (hw : ∀ i < a, isBlk e B ((mu e B)^[i] s) = false) : blk e B s a = [] := by
  induction a with
  | zero => rfl
  | succ a ih => rw [blk, ih (fun i hi => hw i (by omega)), hw a (by omega)]; rfl

theorem blk_length (s : St) (a : Nat) : (blk e B s a).length ≤ a := by
  induction a with
  | zero => simp [blk]
  | succ a ih =>
    rw [blk, List.length_append]
    split <;> simp <;> omega

/-- Pixels of the boundary of `s`, in order. -/
noncomputable def chain (e : Bool) (B : Pix → Bool) (s : St) : List Pix :=
  if blk e B s (Function.minimalPeriod (mu e B) s) = [] then [s.1]
  else blk e B s (Function.minimalPeriod (mu e B) s)

theorem per_pos {s : St} (hB : InFrame w h B) (hs : Good e B s) : 0 < Function.minimalPeriod (mu e B) s := by
  obtain ⟨n, hn, hp⟩ := exists_period hB hs
  exact Function.minimalPeriod_pos_of_mem_periodicPts ⟨n, hn, hp⟩

theorem per_iter (s : St) : (mu e B)^[Function.minimalPeriod (mu e B) s] s = s := Function.iterate_minimalPeriod

theorem iter_ne {s : St} {i : Nat} (h0 : 0 < i) (hi : i < Function.minimalPeriod (mu e B) s) : (mu e B)^[i] s ≠ s := by
  intro hc
  exact Function.not_isPeriodicPt_of_pos_of_lt_minimalPeriod (by omega) hi hc

/-- Turning around a pixel past white neighbours. -/
theorem rot {p : Pix} {d i : Nat} (hd : d < cnt e) (hw : ∀ i' < i, B (nb e p ((d + i') % cnt e)) = false) :
    (mu e B)^[i] (p, d) = (p, (d + i) % cnt e) := by
  induction i with
  | zero => simp [Nat.mod_eq_of_lt hd]
  | succ i ih =>
    rw [Function.iterate_succ_apply', ih (fun i' hi => hw i' (by omega))]
    unfold mu
    rw [if_neg (by simp [hw i (by omega)])]
    simp [Nat.add_assoc]

/-- What is known about the neighbours before the one found, under the 8-connect rule. -/
def Seen (e : Bool) (B : Pix → Bool) (M : Pix → Prop) (p : Pix) (j : Nat) : Prop :=
  e = true → (B (nb8 p ((j + 7) % 8)) = false ∧ M (nb8 p ((j + 7) % 8))) ∧
    (j % 2 = 0 → B (nb8 p ((j + 6) % 8)) = false ∧ M (nb8 p ((j + 6) % 8)))

theorem geo_skip {p : Pix} {j : Nat} (h1 : 1 ≤ p.1) (h2 : 1 ≤ p.2) (hj : j < 8) :
    nb8 (nb8 p j) ((j + 5) % 8) = nb8 p ((j + 6 + j % 2) % 8) ∧
    (j % 2 = 0 → nb8 (nb8 p j) ((j + 6) % 8) = nb8 p ((j + 7) % 8)) := by
  obtain ⟨x, y⟩ := p
  simp only at h1 h2
  rcases lt8_cases hj with rfl | rfl | rfl | rfl | rfl | rfl | rfl | rfl <;> simp [nb8] <;> omega

/-- The neighbour skipped by the 8-connect search is white and has been seen. -/
theorem Seen.skip {M : Pix → Prop} {p : Pix} {j : Nat} (h1 : 1 ≤ p.1) (h2 : 1 ≤ p.2) (hj : j < 8)
    (hs : Seen true B M p j) : B (nb8 (nb8 p j) ((j + 5) % 8)) = false ∧ M (nb8 (nb8 p j) ((j + 5) % 8)) := by
  rw [(geo_skip h1 h2 hj).1]
  obtain ⟨a, b⟩ := hs rfl
  rcases Nat.mod_two_eq_zero_or_one j with h0 | h0
  · rw [h0]; exact b h0
  · rw [h0]; exact a

theorem Seen.step {M M' : Pix → Prop} {p : Pix} {j i : Nat} (h1 : 1 ≤ p.1) (h2 : 1 ≤ p.2) (hj : j < 8)
    (hs : Seen true B M p j) (hM : ∀ c, M c → M' c)
    (hw : ∀ i' < i, B (nb8 (nb8 p j) (((j + 6) % 8 + i') % 8)) = false ∧ M' (nb8 (nb8 p j) (((j + 6) % 8 + i') % 8)))
    (hb : B (nb8 (nb8 p j) (((j + 6) % 8 + i) % 8)) = true) :
    Seen true B M' (nb8 p j) (((j + 6) % 8 + i) % 8) := by
  intro _
  have sk := hs.skip h1 h2 hj
  rcases i with _ | _ | i
  · refine ⟨?_, fun he => ?_⟩
    · have : (((j + 6) % 8 + 0) % 8 + 7) % 8 = (j + 5) % 8 := by omega
      rw [this]; exact ⟨sk.1, hM _ sk.2⟩
    · have hj0 : j % 2 = 0 := by omega
      have : ((j + 6) % 8 + 0) % 8 = (j + 6) % 8 := by omega
      rw [this, (geo_skip h1 h2 hj).2 hj0, ((hs rfl).1).1] at hb
      cases hb
  · refine ⟨?_, fun he => ?_⟩
    · have : (((j + 6) % 8 + (0 + 1)) % 8 + 7) % 8 = ((j + 6) % 8 + 0) % 8 := by omega
      rw [this]; exact hw 0 (by omega)
    · have : (((j + 6) % 8 + (0 + 1)) % 8 + 6) % 8 = (j + 5) % 8 := by omega
      rw [this]; exact ⟨sk.1, hM _ sk.2⟩
  · refine ⟨?_, fun he => ?_⟩
    · have : (((j + 6) % 8 + (i + 1 + 1)) % 8 + 7) % 8 = ((j + 6) % 8 + (i + 1)) % 8 := by omega
      rw [this]; exact hw (i + 1) (by omega)
    · have : (((j + 6) % 8 + (i + 1 + 1)) % 8 + 6) % 8 = ((j + 6) % 8 + i) % 8 := by omega
      rw [this]; exact hw i (by omega)

/-- At the start. -/
theorem Seen.start {M : Pix → Prop} {p : Pix} {a i : Nat} (ha : a < 4) (hq : B (nbA p a) = false ∧ M (nbA p a))
    (hw : ∀ i' < i, B (nb e p (((ax e a + 1) % cnt e + i') % cnt e)) = false ∧ M (nb e p (((ax e a + 1) % cnt e + i') % cnt e))) :
    Seen e B M p (((ax e a + 1) % cnt e + i) % cnt e) := by
  intro he
  subst he
  have c8 : cnt true = 8 := rfl
  have n8 : ∀ p j, nb true p j = nb8 p j := fun _ _ => rfl
  have ea : ax true a = 2 * a := rfl
  have eq : nbA p a = nb8 p (2 * a) := rfl
  simp only [c8, n8, ea, eq] at *
  rcases i with _ | _ | i
  · refine ⟨?_, fun he => by omega⟩
    have : (((2 * a + 1) % 8 + 0) % 8 + 7) % 8 = 2 * a := by omega
    rw [this]; exact hq
  · refine ⟨?_, fun he => ?_⟩
    · have : (((2 * a + 1) % 8 + (0 + 1)) % 8 + 7) % 8 = ((2 * a + 1) % 8 + 0) % 8 := by omega
      rw [this]; exact hw 0 (by omega)
    · have : (((2 * a + 1) % 8 + (0 + 1)) % 8 + 6) % 8 = 2 * a := by omega
      rw [this]; exact hq
  · refine ⟨?_, fun he => ?_⟩
    · have : (((2 * a + 1) % 8 + (i + 1 + 1)) % 8 + 7) % 8 = ((2 * a + 1) % 8 + (i + 1)) % 8 := by omega
      rw [this]; exact hw (i + 1) (by omega)
    · have : (((2 * a + 1) % 8 + (i + 1 + 1)) % 8 + 6) % 8 = ((2 * a + 1) % 8 + i) % 8 := by omega
      rw [this]; exact hw i (by omega)

/-- `nextDirection` -/
def nxt (e : Bool) (j : Nat) : Nat := if e then (j + 6) % 8 else (j + 3) % 4

theorem nxt_lt (j : Nat) : nxt e j < cnt e := by cases e <;> simp [nxt, cnt] <;> omega

/-- Steps of `mu` from the found state to the first one tested at the next pixel. -/
def skipN (e : Bool) : Nat := if e then 2 else 1

/-- The state at which the search continues after moving to the black neighbour found. -/
theorem jump {M : Pix → Prop} {p : Pix} {j : Nat} (hB : InFrame w h B) (hp : B p = true) (hj : j < cnt e)
    (hb : B (nb e p j) = true) (hs : Seen e B M p j) :
    (mu e B)^[skipN e] (p, j) = (nb e p j, nxt e j) ∧
    (∀ i, 0 < i → i < skipN e → isBlk e B ((mu e B)^[i] (p, j)) = false ∧
      M (nb e ((mu e B)^[i] (p, j)).1 ((mu e B)^[i] (p, j)).2)) := by
  obtain ⟨h1, h2, -⟩ := hB p hp
  have m1 : mu e B (p, j) = (nb e p j, (j + cnt e / 2 + 1) % cnt e) := by
    unfold mu; rw [if_pos hb]
  cases e with
  | false =>
    refine ⟨?_, fun i a b => by simp [skipN] at b; omega⟩
    show mu false B (p, j) = _
    rw [m1]
    rfl
  | true =>
    have sk := hs.skip h1 h2 hj
    have m1' : mu true B (p, j) = (nb8 p j, (j + 5) % 8) := m1
    refine ⟨?_, fun i a b => ?_⟩
    · show mu true B (mu true B (p, j)) = _
      rw [m1']
      unfold mu
      rw [if_neg (by rw [show nb true (nb8 p j) ((j + 5) % 8) = nb8 (nb8 p j) ((j + 5) % 8) from rfl, sk.1]; simp)]
      show (nb8 p j, ((j + 5) % 8 + 1) % 8) = (nb8 p j, (j + 6) % 8)
      have : ((j + 5) % 8 + 1) % 8 = (j + 6) % 8 := by omega
      rw [this]
    · have : i = 1 := by simp [skipN] at b; omega
      subst this
      show isBlk true B (mu true B (p, j)) = false ∧ M (nb true (mu true B (p, j)).1 (mu true B (p, j)).2)
      rw [m1']
      exact sk

/-- The search around the next pixel finds something: at the latest the pixel it came from. -/
theorem search_back {p : Pix} {j : Nat} (hB : InFrame w h B) (hp : B p = true) (hj : j < cnt e) :
    ∃ i < cnt e, B (nb e (nb e p j) ((nxt e j + i) % cnt e)) = true := by
  obtain ⟨h1, h2, -⟩ := hB p hp
  refine ⟨cnt e - skipN e, by cases e <;> decide, ?_⟩
  have : (nxt e j + (cnt e - skipN e)) % cnt e = (j + cnt e / 2) % cnt e := by
    cases e <;> simp [nxt, cnt, skipN] <;> omega
  rw [this, nb_back h1 h2 hj]
  exact hp

/-- Progress of a trace from the found state `s0`: the last found state is the `m`-th. -/
structure Prog (e : Bool) (B : Pix → Bool) (s0 : St) (M : Pix → Prop) (m : Nat) (p : Pix) (j : Nat) : Prop where
  at' : (mu e B)^[m] s0 = (p, j)
  lt : m < Function.minimalPeriod (mu e B) s0
  black : B (nb e p j) = true
  seen : Seen e B M p j
  cov : ∀ i ≤ m, isBlk e B ((mu e B)^[i] s0) = false → M (nb e ((mu e B)^[i] s0).1 ((mu e B)^[i] s0).2)

/-- One round of the loop of `trace`. -/
theorem Prog.round {s0 : St} {M M' : Pix → Prop} {m i : Nat} {p : Pix} {j : Nat} (hB : InFrame w h B)
    (hg : Good e B s0) (h0 : isBlk e B s0 = true) (hP : Prog e B s0 M m p j)
    (hM : ∀ c, M c → M' c)
    (hw : ∀ i' < i, B (nb e (nb e p j) ((nxt e j + i') % cnt e)) = false ∧ M' (nb e (nb e p j) ((nxt e j + i') % cnt e)))
    (hb : B (nb e (nb e p j) ((nxt e j + i) % cnt e)) = true) :
    (mu e B)^[m + skipN e + i] s0 = (nb e p j, (nxt e j + i) % cnt e) ∧
    ((nb e p j, (nxt e j + i) % cnt e) = s0 →
      m + skipN e + i = Function.minimalPeriod (mu e B) s0 ∧
      blk e B s0 (Function.minimalPeriod (mu e B) s0) = blk e B s0 (m + 1) ∧
      ∀ k < Function.minimalPeriod (mu e B) s0, isBlk e B ((mu e B)^[k] s0) = false →
        M' (nb e ((mu e B)^[k] s0).1 ((mu e B)^[k] s0).2)) ∧
    ((nb e p j, (nxt e j + i) % cnt e) ≠ s0 →
      Prog e B s0 M' (m + skipN e + i) (nb e p j) ((nxt e j + i) % cnt e) ∧
      blk e B s0 (m + skipN e + i + 1) = blk e B s0 (m + 1) ++ [nb e p j]) := by
  have g : B p = true ∧ j < cnt e := by
    have := iter_good hg m
    rw [hP.at'] at this; exact this
  obtain ⟨jm, jw⟩ := jump hB g.1 g.2 hP.black hP.seen
  have sp : 0 < skipN e := by cases e <;> decide
  have key : ∀ k, (mu e B)^[m + k] s0 = (mu e B)^[k] (p, j) := by
    intro k
    rw [Nat.add_comm, Function.iterate_add_apply, hP.at']
  have key2 : ∀ k, (mu e B)^[m + skipN e + k] s0 = (mu e B)^[k] (nb e p j, nxt e j) := by
    intro k
    rw [Nat.add_comm (m + skipN e) k, Function.iterate_add_apply, key, jm]
  -- the states in between are white and seen
  have mid : ∀ k, m < k → k < m + skipN e + i → isBlk e B ((mu e B)^[k] s0) = false ∧
      M' (nb e ((mu e B)^[k] s0).1 ((mu e B)^[k] s0).2) := by
    intro k k1 k2
    rcases Nat.lt_or_ge k (m + skipN e) with k3 | k3
    · have := jw (k - m) (by omega) (by omega)
      rw [← key, show m + (k - m) = k by omega] at this
      exact ⟨this.1, hM _ this.2⟩
    · have e1 := key2 (k - (m + skipN e))
      rw [show m + skipN e + (k - (m + skipN e)) = k by omega,
        rot (nxt_lt j) (fun i' hi => (hw i' (by omega)).1)] at e1
      rw [e1]
      exact hw (k - (m + skipN e)) (by omega)
  have atNew : (mu e B)^[m + skipN e + i] s0 = (nb e p j, (nxt e j + i) % cnt e) := by
    rw [key2, rot (nxt_lt j) (fun i' hi => (hw i' hi).1)]
  -- none of the states in between is the first one
  have below : ∀ k, m ≤ k → k < m + skipN e + i → k < Function.minimalPeriod (mu e B) s0 := by
    intro k
    induction k with
    | zero => intro a b; have := hP.lt; omega
    | succ k ih =>
      intro a b
      rcases Nat.lt_or_ge m (k + 1) with c | c
      · have c1 := ih (by omega) (by omega)
        have c2 := (mid (k + 1) c b).1
        rcases Nat.lt_or_ge (k + 1) (Function.minimalPeriod (mu e B) s0) with d | d
        · exact d
        · have : k + 1 = Function.minimalPeriod (mu e B) s0 := by omega
          rw [this, per_iter, h0] at c2; cases c2
      · have := hP.lt; omega
  have blkMid : ∀ k, m + 1 ≤ k → k ≤ m + skipN e + i → blk e B s0 k = blk e B s0 (m + 1) := by
    intro k a b
    have : k = (m + 1) + (k - (m + 1)) := by omega
    rw [this, blk_add, blk_white ((mu e B)^[m + 1] s0), List.append_nil]
    intro i' hi
    rw [← Function.iterate_add_apply]
    exact (mid _ (by omega) (by omega)).1
  have covNew : ∀ k < m + skipN e + i, isBlk e B ((mu e B)^[k] s0) = false →
      M' (nb e ((mu e B)^[k] s0).1 ((mu e B)^[k] s0).2) := by
    intro k hk hwk
    rcases Nat.lt_or_ge m k with c | c
    · exact (mid k c hk).2
    · exact hM _ (hP.cov k c hwk)
  refine ⟨atNew, fun heq => ?_, fun hne => ?_⟩
  · have hn : m + skipN e + i = Function.minimalPeriod (mu e B) s0 := by
      have b1 := below (m + skipN e + i - 1) (by omega) (by omega)
      rcases Nat.lt_or_ge (m + skipN e + i) (Function.minimalPeriod (mu e B) s0) with d | d
      · exact absurd (atNew.trans heq) (iter_ne (by omega) d)
      · omega
    refine ⟨hn, ?_, ?_⟩
    · rw [← hn]; exact blkMid _ (by omega) (by omega)
    · rw [← hn]; exact covNew
  · have hlt : m + skipN e + i < Function.minimalPeriod (mu e B) s0 := by
      have b1 := below (m + skipN e + i - 1) (by omega) (by omega)
      rcases Nat.lt_or_ge (m + skipN e + i) (Function.minimalPeriod (mu e B) s0) with d | d
      · exact d
      · have : m + skipN e + i = Function.minimalPeriod (mu e B) s0 := by omega
        rw [this, per_iter] at atNew
        exact absurd atNew.symm hne
    refine ⟨⟨atNew, hlt, hb, ?_, ?_⟩, ?_⟩
    · obtain ⟨h1, h2, -⟩ := hB p g.1
      cases e with
      | false => intro hc; cases hc
      | true => exact hP.seen.step h1 h2 g.2 hM hw hb
    · intro k hk hwk
      rcases Nat.lt_or_ge k (m + skipN e + i) with c | c
      · exact covNew k c hwk
      · have : k = m + skipN e + i := by omega
        rw [this, atNew] at hwk
        have hb' : isBlk e B (nb e p j, (nxt e j + i) % cnt e) = true := hb
        rw [hb'] at hwk; cases hwk
    · rw [blk, blkMid _ (by omega) (by omega), atNew]
      have hb' : isBlk e B (nb e p j, (nxt e j + i) % cnt e) = true := hb
      rw [if_pos hb']

/-- The chain in terms of the first state found. -/
theorem chain_found {p : Pix} {a i : Nat} (hB : InFrame w h B) (hp : B p = true) (ha : a < 4) (hq : B (nbA p a) = false)
    (hw : ∀ i' < i, B (nb e p (((ax e a + 1) % cnt e + i') % cnt e)) = false)
    (hb : B (nb e p (((ax e a + 1) % cnt e + i) % cnt e)) = true) :
    (mu e B)^[1 + i] (p, ax e a) = (p, ((ax e a + 1) % cnt e + i) % cnt e) ∧
    chain e B (p, ax e a) = blk e B (p, ((ax e a + 1) % cnt e + i) % cnt e)
      (Function.minimalPeriod (mu e B) (p, ((ax e a + 1) % cnt e + i) % cnt e)) ∧
    Function.minimalPeriod (mu e B) (p, ((ax e a + 1) % cnt e + i) % cnt e) =
      Function.minimalPeriod (mu e B) (p, ax e a) := by
  have g := iter_good (e := e) (s := (p, ax e a)) ⟨hp, ax_lt ha⟩
  have m1 : mu e B (p, ax e a) = (p, (ax e a + 1) % cnt e) := by
    unfold mu; rw [if_neg (by rw [nb_ax, hq]; simp)]
  have itk : ∀ k ≤ i, (mu e B)^[1 + k] (p, ax e a) = (p, ((ax e a + 1) % cnt e + k) % cnt e) := by
    intro k hk
    rw [Nat.add_comm, Function.iterate_succ_apply, m1]
    exact rot (Nat.mod_lt _ cnt_pos) (fun i' hi => hw i' (by omega))
  have whites : ∀ k < 1 + i, isBlk e B ((mu e B)^[k] (p, ax e a)) = false := by
    intro k hk
    rcases Nat.eq_zero_or_pos k with rfl | k0
    · show B (nb e p (ax e a)) = false
      rw [nb_ax]; exact hq
    · obtain ⟨k, rfl⟩ : ∃ k', k = 1 + k' := ⟨k - 1, by omega⟩
      rw [itk k (by omega)]; exact hw k (by omega)
  have hs0 := itk i (Nat.le_refl _)
  have per : Function.minimalPeriod (mu e B) ((mu e B)^[1 + i] (p, ax e a)) =
      Function.minimalPeriod (mu e B) (p, ax e a) := by
    apply Function.minimalPeriod_apply_iterate
    obtain ⟨n, hn, hp'⟩ := exists_period hB (show Good e B (p, ax e a) from ⟨hp, ax_lt ha⟩)
    exact ⟨n, hn, hp'⟩
  rw [hs0] at per
  refine ⟨hs0, ?_, per⟩
  have hle : 1 + i < Function.minimalPeriod (mu e B) (p, ax e a) := by
    by_contra hc
    have np := per_pos hB (show Good e B (p, ax e a) from ⟨hp, ax_lt ha⟩)
    have := Function.iterate_mod_minimalPeriod_eq (f := mu e B) (x := (p, ax e a)) (n := 1 + i)
    have lt := Nat.mod_lt (1 + i) np
    have wh := whites ((1 + i) % Function.minimalPeriod (mu e B) (p, ax e a)) (by omega)
    rw [this, hs0] at wh
    have hb' : isBlk e B (p, ((ax e a + 1) % cnt e + i) % cnt e) = true := hb
    rw [hb'] at wh; cases wh
  have e1 : blk e B (p, ax e a) (Function.minimalPeriod (mu e B) (p, ax e a)) =
      blk e B (p, ((ax e a + 1) % cnt e + i) % cnt e) (Function.minimalPeriod (mu e B) (p, ax e a)) := by
    generalize hn : Function.minimalPeriod (mu e B) (p, ax e a) = n at *
    have l : blk e B (p, ax e a) n = blk e B (p, ax e a) (1 + i) ++
        blk e B ((mu e B)^[1 + i] (p, ax e a)) (n - (1 + i)) := by
      rw [← blk_add]; congr 1; omega
    have r : blk e B (p, ((ax e a + 1) % cnt e + i) % cnt e) n =
        blk e B (p, ((ax e a + 1) % cnt e + i) % cnt e) (n - (1 + i)) ++
        blk e B ((mu e B)^[n - (1 + i)] (p, ((ax e a + 1) % cnt e + i) % cnt e)) (1 + i) := by
      rw [← blk_add]; congr 1; omega
    have back : (mu e B)^[n - (1 + i)] (p, ((ax e a + 1) % cnt e + i) % cnt e) = (p, ax e a) := by
      rw [← hs0, ← Function.iterate_add_apply, show n - (1 + i) + (1 + i) = n by omega, ← hn, per_iter]
    rw [l, r, back, blk_white _ _ whites, hs0]; simp
  unfold chain
  rw [e1, per, if_neg]
  intro hc
  have np := per_pos hB (show Good e B (p, ax e a) from ⟨hp, ax_lt ha⟩)
  obtain ⟨n, hn⟩ : ∃ n, Function.minimalPeriod (mu e B) (p, ax e a) = 1 + n := ⟨_, (Nat.add_sub_of_le np).symm⟩
  rw [hn, blk_add] at hc
  have hb' : isBlk e B (p, ((ax e a + 1) % cnt e + i) % cnt e) = true := hb
  have h1 : blk e B (p, ((ax e a + 1) % cnt e + i) % cnt e) 1 = [p] := by
    show [] ++ (if isBlk e B (p, ((ax e a + 1) % cnt e + i) % cnt e) = true then [p] else []) = [p]
    rw [if_pos hb']; rfl
  rw [h1] at hc
  cases hc

/-- The chain of an isolated pixel. -/
theorem chain_isolated {p : Pix} {a : Nat} (ha : a < 4) (hw : ∀ j < cnt e, B (nb e p j) = false) :
    chain e B (p, ax e a) = [p] := by
  unfold chain
  rw [if_pos]
  apply blk_white
  intro i _
  rw [rot (ax_lt ha) (fun i' _ => hw _ (Nat.mod_lt _ cnt_pos))]
  exact hw _ (Nat.mod_lt _ cnt_pos)

end Boof
