import Verif.Proofs.Starts
/-
Boundaries of regions: one for each pair of a component and an adjacent region of the background.
-/
namespace Boof

/-- The connectivity rule as an element of `ConnectRule`. -/
abbrev rl (e : Bool) : ConnectRule := ruleOf e

variable {e : Bool} {B : Pix → Bool} {w ht : Nat}

abbrev IsB (B : Pix → Bool) (p : Pix) : Prop := B p = true
abbrev IsW (B : Pix → Bool) (p : Pix) : Prop := ¬B p = true

/-! ### Neighbours -/

theorem Adjacent.symm {r : ConnectRule} {p q : Pix} (h : Adjacent r p q) : Adjacent r q p := by
  cases r
  · unfold Adjacent at *; omega
  · exact ⟨Ne.symm h.1, h.2.2.1, h.2.1, h.2.2.2.2, h.2.2.2.1⟩

theorem Adjacent.ne {r : ConnectRule} {p q : Pix} (h : Adjacent r p q) : p ≠ q := by
  cases r
  · rintro rfl; unfold Adjacent at h; omega
  · exact h.1

theorem adj_iff {p q : Pix} (h1 : 1 ≤ p.1) (h2 : 1 ≤ p.2) : Adjacent (rl e) p q ↔ ∃ j < cnt e, nb e p j = q := by
  obtain ⟨x, y⟩ := p
  obtain ⟨a, b⟩ := q
  simp only at h1 h2
  cases e
  · constructor
    · intro h
      change (x = a ∧ (y + 1 = b ∨ b + 1 = y)) ∨ (y = b ∧ (x + 1 = a ∨ a + 1 = x)) at h
      rcases h with ⟨h3, h4 | h4⟩ | ⟨h3, h4 | h4⟩
      · exact ⟨1, by decide, by simp [nb, nb8]; omega⟩
      · exact ⟨3, by decide, by simp [nb, nb8]; omega⟩
      · exact ⟨0, by decide, by simp [nb, nb8]; omega⟩
      · exact ⟨2, by decide, by simp [nb, nb8]; omega⟩
    · rintro ⟨j, hj, h⟩
      show (x = a ∧ (y + 1 = b ∨ b + 1 = y)) ∨ (y = b ∧ (x + 1 = a ∨ a + 1 = x))
      rcases lt4_cases hj with rfl | rfl | rfl | rfl <;> simp [nb, nb8] at h <;> omega
  · constructor
    · rintro ⟨h0, h3, h4, h5, h6⟩
      have h0 : ¬(x = a ∧ y = b) := fun hh => h0 (Prod.ext hh.1 hh.2)
      simp only at h3 h4 h5 h6
      have : (a = x + 1 ∧ b = y) ∨ (a = x + 1 ∧ b = y + 1) ∨ (a = x ∧ b = y + 1) ∨ (a + 1 = x ∧ b = y + 1) ∨
          (a + 1 = x ∧ b = y) ∨ (a + 1 = x ∧ b + 1 = y) ∨ (a = x ∧ b + 1 = y) ∨ (a = x + 1 ∧ b + 1 = y) := by omega
      rcases this with h | h | h | h | h | h | h | h
      · exact ⟨0, by decide, by simp [nb, nb8]; omega⟩
      · exact ⟨1, by decide, by simp [nb, nb8]; omega⟩
      · exact ⟨2, by decide, by simp [nb, nb8]; omega⟩
      · exact ⟨3, by decide, by simp [nb, nb8]; omega⟩
      · exact ⟨4, by decide, by simp [nb, nb8]; omega⟩
      · exact ⟨5, by decide, by simp [nb, nb8]; omega⟩
      · exact ⟨6, by decide, by simp [nb, nb8]; omega⟩
      · exact ⟨7, by decide, by simp [nb, nb8]; omega⟩
    · rintro ⟨j, hj, h⟩
      refine ⟨?_, ?_⟩
      · rintro hh
        rw [Prod.mk.injEq] at hh
        rcases lt8_cases hj with rfl | rfl | rfl | rfl | rfl | rfl | rfl | rfl <;> simp [nb, nb8] at h <;> omega
      · show x ≤ a + 1 ∧ a ≤ x + 1 ∧ y ≤ b + 1 ∧ b ≤ y + 1
        rcases lt8_cases hj with rfl | rfl | rfl | rfl | rfl | rfl | rfl | rfl <;> simp [nb, nb8] at h <;> omega

theorem adj4_iff {p q : Pix} (h1 : 1 ≤ p.1) (h2 : 1 ≤ p.2) : Adjacent .four p q ↔ ∃ a < 4, nbA p a = q := by
  have := adj_iff (e := false) (q := q) h1 h2
  exact this

theorem adj8_iff {p q : Pix} (h1 : 1 ≤ p.1) (h2 : 1 ≤ p.2) : Adjacent .eight p q ↔ ∃ j < 8, nb8 p j = q := by
  have := adj_iff (e := true) (q := q) h1 h2
  exact this

theorem Adjacent.weaken {p q : Pix} (h : Adjacent .four p q) : Adjacent .eight p q := by
  refine ⟨h.ne, ?_⟩
  unfold Adjacent at h
  omega

/-! ### Paths -/

theorem Linked.left {r : ConnectRule} {S : Pix → Prop} {p q : Pix} (h : Linked r S p q) : S p := by
  induction h with
  | refl h => exact h
  | step _ _ _ ih => exact ih

theorem Linked.right {r : ConnectRule} {S : Pix → Prop} {p q : Pix} (h : Linked r S p q) : S q := by
  cases h <;> assumption

theorem Linked.trans {r : ConnectRule} {S : Pix → Prop} {p q u : Pix} (h1 : Linked r S p q) (h2 : Linked r S q u) : Linked r S p u := by
  induction h2 with
  | refl _ => exact h1
  | step _ ha hs ih => exact ih.step ha hs

theorem Linked.symm {r : ConnectRule} {S : Pix → Prop} {p q : Pix} (h : Linked r S p q) : Linked r S q p := by
  induction h with
  | refl h => exact .refl h
  | @step q u hpq ha hs ih => exact ((Linked.refl hs).step ha.symm hpq.right).trans ih

theorem Linked.mono {r : ConnectRule} {S T : Pix → Prop} (hST : ∀ p, S p → T p) {p q : Pix} (h : Linked r S p q) : Linked r T p q := by
  induction h with
  | refl h => exact .refl (hST _ h)
  | step _ ha hs ih => exact ih.step ha (hST _ hs)

theorem conn_iff (hB : InFrame w ht B) {p q : Pix} : Conn e B p q ↔ Linked (rl e) (IsB B) p q := by
  constructor
  · intro h
    induction h with
    | refl h => exact .refl h
    | @step q j hpq hj hb ih =>
      obtain ⟨h1, h2, -⟩ := hB _ hpq.right
      exact ih.step ((adj_iff h1 h2).2 ⟨j, hj, rfl⟩) hb
  · intro h
    induction h with
    | refl h => exact .refl h
    | @step q u hpq ha hs ih =>
      obtain ⟨h1, h2, -⟩ := hB _ ih.right
      obtain ⟨j, hj, rfl⟩ := (adj_iff h1 h2).1 ha
      exact ih.step hj hs

theorem first_iff (hB : InFrame w ht B) {p : Pix} : IsFirst e B p ↔ FirstOf (rl e) (IsB B) p := by
  unfold IsFirst FirstOf
  constructor
  · rintro ⟨h1, h2⟩; exact ⟨h1, fun q hq => h2 q ((conn_iff hB).2 hq)⟩
  · rintro ⟨h1, h2⟩; exact ⟨h1, fun q hq => h2 q ((conn_iff hB).1 hq)⟩

/-! ### The winding number on the background -/

theorem wind_h {S : St → Prop} {x y : Nat} (h1 : ¬B (x, y) = true) (h2 : ¬B (x + 1, y) = true) :
    wind e B S (x + 1) y = wind e B S x y := by
  rw [wind, hstep, ind_neg (crack_false (by simpa using h2)), ind_neg (crack_false (by simpa using h1))]; omega

theorem wind_v {S : St → Prop} (hB : InFrame w ht B) (hi : Inv e B S) {x y : Nat} (h1 : ¬B (x, y) = true) (h2 : ¬B (x, y + 1) = true) :
    wind e B S x (y + 1) = wind e B S x y := by
  rw [wind_down hB hi, vstep, ind_neg (crack_false (by simpa using h2)), ind_neg (crack_false (by simpa using h1))]; omega

theorem wind_w4 {S : St → Prop} (hB : InFrame w ht B) (hi : Inv e B S) {p q : Pix} (h1 : IsW B p) (h2 : IsW B q)
    (ha : Adjacent .four p q) : wind e B S q.1 q.2 = wind e B S p.1 p.2 := by
  obtain ⟨x, y⟩ := p
  obtain ⟨a, b⟩ := q
  rcases ha with ⟨rfl : x = a, rfl | rfl⟩ | ⟨rfl : y = b, rfl | rfl⟩
  · exact wind_v hB hi h1 h2
  · exact (wind_v hB hi h2 h1).symm
  · exact wind_h h1 h2
  · exact (wind_h h2 h1).symm

/-- Rule 4: white pixels which meet at a corner. -/
theorem wind_corner {S : St → Prop} (hB : InFrame w ht B) (hi : Inv false B S) {r : Pix} {a : Nat} (ha : a < 4) (hr : B r = true)
    (h1 : B (nbA r a) = false) (h2 : B (nbA r ((a + 1) % 4)) = false) :
    wind false B S (nbA r a).1 (nbA r a).2 = wind false B S (nbA r ((a + 1) % 4)).1 (nbA r ((a + 1) % 4)).2 := by
  have c1 := wind_cross hB hi ha hr h1
  have c2 := wind_cross hB hi (a := (a + 1) % 4) (by omega) hr h2
  have l := (link4 hi ha hr h1 rfl rfl).1 h2
  have : ind (S (r, ax false a)) = ind (S (r, ax false ((a + 1) % 4))) := ind_congr l
  omega

theorem wind_w8 {S : St → Prop} (hB : InFrame w ht B) (hi : Inv false B S) {p q : Pix} (h1 : IsW B p) (h2 : IsW B q)
    (ha : Adjacent .eight p q) : wind false B S q.1 q.2 = wind false B S p.1 p.2 := by
  have main : ∀ {x y : Nat}, IsW B (x, y) → IsW B (x + 1, y + 1) → wind false B S (x + 1) (y + 1) = wind false B S x y := by
    intro x y h1 h2
    by_cases hb : B (x + 1, y) = true
    · have := wind_corner hB hi (r := (x + 1, y)) (a := 1) (by omega) hb (by simpa [nbA, nb8] using h2) (by simpa [nbA, nb8] using h1)
      simpa [nbA, nb8] using this
    · rw [wind_v hB hi hb h2, wind_h h1 hb]
  have main' : ∀ {x y : Nat}, IsW B (x + 1, y) → IsW B (x, y + 1) → wind false B S (x + 1) y = wind false B S x (y + 1) := by
    intro x y h1 h2
    by_cases hb : B (x, y) = true
    · have := wind_corner hB hi (r := (x, y)) (a := 0) (by omega) hb (by simpa [nbA, nb8] using h1) (by simpa [nbA, nb8] using h2)
      simpa [nbA, nb8] using this
    · rw [wind_v hB hi hb h2, wind_h hb h1]
  obtain ⟨x, y⟩ := p
  obtain ⟨a, b⟩ := q
  obtain ⟨h0, h3, h4, h5, h6⟩ := ha
  have h0 : ¬(x = a ∧ y = b) := fun hh => h0 (Prod.ext hh.1 hh.2)
  simp only at h3 h4 h5 h6
  have : Adjacent .four (x, y) (a, b) ∨ (a = x + 1 ∧ b = y + 1) ∨ (x = a + 1 ∧ b = y + 1) ∨ (x = a + 1 ∧ y = b + 1) ∨ (a = x + 1 ∧ y = b + 1) := by
    unfold Adjacent; simp only; omega
  rcases this with hA | ⟨rfl, rfl⟩ | ⟨rfl, rfl⟩ | ⟨rfl, rfl⟩ | ⟨rfl, rfl⟩
  · exact wind_w4 hB hi h1 h2 hA
  · exact main h1 h2
  · exact (main' h1 h2).symm
  · exact (main h2 h1).symm
  · exact main' h2 h1

theorem wind_linked {S : St → Prop} (hB : InFrame w ht B) (hi : Inv e B S) {p q : Pix} (hl : Linked (rl e).dual (IsW B) p q) :
    wind e B S q.1 q.2 = wind e B S p.1 p.2 := by
  induction hl with
  | refl _ => rfl
  | step hpq ha hs ih =>
    rw [← ih]
    cases e
    · exact wind_w8 hB hi hpq.right hs ha
    · exact wind_w4 hB hi hpq.right hs ha

/-- Sides of the same boundary lie on one cycle. -/
theorem one_orbit (hB : InFrame w ht B) {p p' : Pix} {a a' : Nat} (ha : a < 4) (ha' : a' < 4) (hq : B (nbA p a) = false)
    (hq' : B (nbA p' a') = false) (hc : Conn e B p p') (hl : Linked (rl e).dual (IsW B) (nbA p a) (nbA p' a')) :
    Orb e B (p, ax e a) (p', ax e a') := by
  classical
  have hi := Orb.inv (e := e) (s := (p, ax e a)) hB
  have c1 := wind_cross hB hi ha hc.left hq
  have c2 := wind_cross hB hi ha' hc.right hq'
  rw [wind_conn hB hi hc, wind_linked hB hi hl, c1, ind_pos (Orb.refl _)] at c2
  by_contra hn
  rw [ind_neg hn] at c2
  omega

/-! ### What a boundary faces -/

/-- The neighbour across the corner between the axis directions `a` and `a+1`. -/
def diag (p : Pix) (a : Nat) : Pix := nb8 p (2 * a + 1)

theorem geo {p : Pix} {a : Nat} (h1 : 1 ≤ p.1) (h2 : 1 ≤ p.2) (ha : a < 4) :
    nbA (nbA p a) ((a + 2) % 4) = p ∧ nbA (nbA p ((a + 1) % 4)) a = diag p a ∧ diag (nbA p ((a + 1) % 4)) ((a + 3) % 4) = nbA p a ∧
    nbA (diag p a) ((a + 2) % 4) = nbA p ((a + 1) % 4) ∧ nbA (diag p a) ((a + 3) % 4) = nbA p a ∧
    diag (diag p a) ((a + 2) % 4) = p ∧ nbA (nbA p a) ((a + 1) % 4) = diag p a := by
  obtain ⟨x, y⟩ := p
  simp only at h1 h2
  rcases lt4_cases ha with rfl | rfl | rfl | rfl <;> simp [nbA, nb8, diag] <;> omega

theorem geo_adj {p : Pix} {a : Nat} (h1 : 1 ≤ p.1) (h2 : 1 ≤ p.2) (ha : a < 4) :
    Adjacent .four (nbA p a) (diag p a) ∧ Adjacent .four (diag p a) (nbA p ((a + 1) % 4)) ∧
    Adjacent .eight (nbA p a) (nbA p ((a + 1) % 4)) ∧ Adjacent .eight p (nbA p a) ∧ Adjacent .eight p (diag p a) ∧
    Adjacent .four p (nbA p a) := by
  obtain ⟨x, y⟩ := p
  simp only at h1 h2
  rcases lt4_cases ha with rfl | rfl | rfl | rfl <;> simp [nbA, nb8, diag, Adjacent] <;> omega

/-- What holds of the surroundings of the states of a boundary which faces `W`, rule 4. -/
def J4 (B : Pix → Bool) (W : Pix → Prop) (s : St) : Prop :=
  (∃ q ∈ [nbA s.1 ((s.2 + 3) % 4), diag s.1 ((s.2 + 3) % 4), nbA s.1 s.2], IsW B q) ∧
  ∀ q ∈ [nbA s.1 ((s.2 + 3) % 4), diag s.1 ((s.2 + 3) % 4), nbA s.1 s.2], IsW B q → W q

theorem J4.mu {W : Pix → Prop} (hB : InFrame w ht B) (hW : ∀ q q', W q → Adjacent .eight q q' → IsW B q' → W q') {s : St}
    (hg : Good false B s) (hJ : J4 B W s) : J4 B W (mu false B s) := by
  obtain ⟨r, j⟩ := s
  obtain ⟨hr, hj⟩ := hg
  change B r = true at hr
  change j < 4 at hj
  obtain ⟨r1, r2, -⟩ := hB r hr
  have ej : ((j + 3) % 4 + 1) % 4 = j := by omega
  obtain ⟨g1, g2, g3, g4, g5, g6, g7⟩ := geo (a := (j + 3) % 4) r1 r2 (by omega)
  rw [ej] at g2 g3 g4
  obtain ⟨x1, x2⟩ := hJ
  simp only [List.mem_cons, List.not_mem_nil, or_false, exists_eq_or_imp, exists_eq_left, forall_eq_or_imp, forall_eq] at x1 x2
  unfold Boof.mu
  rw [show nb false r j = nbA r j from rfl]
  by_cases hb : B (nbA r j) = true
  · simp only [hb, if_true]
    obtain ⟨r5, r6, -⟩ := hB _ hb
    have k1 : (j + cnt false / 2 + 1) % cnt false = (j + 3) % 4 := rfl
    have k2 : ((j + 3) % 4 + 3) % 4 = (j + 2) % 4 := by omega
    have k3 : ((j + 3) % 4 + 3) % 4 = ((j + 3) % 4 + 3) % 4 := rfl
    have g1' := (geo (p := r) (a := j) r1 r2 hj).1
    unfold J4
    simp only [k1, List.mem_cons, List.not_mem_nil, or_false, exists_eq_or_imp, exists_eq_left, forall_eq_or_imp, forall_eq]
    rw [g3, g2, k2, g1']
    refine ⟨?_, ?_⟩
    · rcases x1 with x1 | x1 | x1
      · exact Or.inr (Or.inl x1)
      · exact Or.inr (Or.inr x1)
      · exact absurd hb x1
    · exact ⟨fun hh => absurd hr hh, x2.1, x2.2.1⟩
  · simp only [hb]
    have k1 : (j + 1) % cnt false = (j + 1) % 4 := rfl
    have k2 : ((j + 1) % 4 + 3) % 4 = j := by omega
    have hw := x2.2.2 hb
    obtain ⟨a1, a2, a3, a4, a5, a6⟩ := geo_adj (a := j) r1 r2 hj
    unfold J4
    simp only [k1, Bool.false_eq_true, if_false, List.mem_cons, List.not_mem_nil, or_false, exists_eq_or_imp, exists_eq_left,
      forall_eq_or_imp, forall_eq]
    rw [k2]
    exact ⟨Or.inl hb, fun _ => hw, hW _ _ hw a1.weaken, hW _ _ hw a3⟩

theorem J4.start {W : Pix → Prop} (hB : InFrame w ht B) (hW : ∀ q q', W q → Adjacent .eight q q' → IsW B q' → W q') {p : Pix} {a : Nat}
    (hp : B p = true) (ha : a < 4) (hq : IsW B (nbA p a)) (hw : W (nbA p a)) : J4 B W (p, a) := by
  obtain ⟨r1, r2, -⟩ := hB p hp
  have ej : ((a + 3) % 4 + 1) % 4 = a := by omega
  obtain ⟨a1, a2, a3, a4, a5, a6⟩ := geo_adj (p := p) (a := (a + 3) % 4) r1 r2 (by omega)
  rw [ej] at a2 a3
  unfold J4
  simp only [List.mem_cons, List.not_mem_nil, or_false, exists_eq_or_imp, exists_eq_left, forall_eq_or_imp, forall_eq]
  exact ⟨Or.inr (Or.inr hq), hW _ _ hw a3.symm, hW _ _ hw a2.symm.weaken, fun _ => hw⟩

/-- The same for rule 8. -/
def J8 (B : Pix → Bool) (W : Pix → Prop) (s : St) : Prop :=
  if s.2 % 2 = 1 then W (nbA s.1 (s.2 / 2)) ∨ (W (nbA s.1 ((s.2 / 2 + 1) % 4)) ∧ W (diag s.1 (s.2 / 2)))
  else (W (diag s.1 ((s.2 / 2 + 3) % 4)) ∧ (W (nbA s.1 ((s.2 / 2 + 3) % 4)) ∨ W (nbA s.1 (s.2 / 2)))) ∨
    (B (diag s.1 ((s.2 / 2 + 3) % 4)) = true ∧ W (nbA s.1 (s.2 / 2)))

theorem J8.mu {W : Pix → Prop} (hB : InFrame w ht B) (hw : ∀ q, W q → IsW B q)
    (hW : ∀ q q', W q → Adjacent .four q q' → IsW B q' → W q') {s : St}
    (hg : Good true B s) (hJ : J8 B W s) : J8 B W (mu true B s) := by
  obtain ⟨r, j⟩ := s
  obtain ⟨hr, hj⟩ := hg
  change B r = true at hr
  change j < 8 at hj
  obtain ⟨r1, r2, -⟩ := hB r hr
  unfold Boof.mu
  rw [show nb true r j = nb8 r j from rfl]
  rcases Nat.mod_two_eq_zero_or_one j with h0 | h0
  · -- looking along an axis
    obtain ⟨b, rfl⟩ : ∃ b, j = 2 * b := ⟨j / 2, by omega⟩
    have hb4 : b < 4 := by omega
    unfold J8 at hJ
    simp only [show 2 * b % 2 = 0 by omega, show 2 * b / 2 = b by omega, show ¬(0 = 1) by omega, if_false] at hJ
    have ej : ((b + 3) % 4 + 1) % 4 = b := by omega
    obtain ⟨g1, g2, g3, g4, g5, g6, g7⟩ := geo (p := r) (a := (b + 3) % 4) r1 r2 (by omega)
    obtain ⟨a1, a2, a3, a4, a5, a6⟩ := geo_adj (p := r) (a := (b + 3) % 4) r1 r2 (by omega)
    rw [ej] at g2 g3 g4 a2 a3
    have g1' := (geo (p := r) (a := b) r1 r2 hb4).1
    rw [show nb8 r (2 * b) = nbA r b from rfl]
    by_cases hb : B (nbA r b) = true
    · simp only [hb, if_true]
      have k1 : (2 * b + cnt true / 2 + 1) % cnt true = (2 * b + 5) % 8 := rfl
      have k2 : (2 * b + 5) % 8 % 2 = 1 := by omega
      have k3 : (2 * b + 5) % 8 / 2 = (b + 2) % 4 := by omega
      have k4 : ((b + 2) % 4 + 1) % 4 = (b + 3) % 4 := by omega
      have k5 : ((b + 3) % 4 + 3) % 4 = (b + 2) % 4 := by omega
      rw [k5] at g3
      unfold J8
      simp only [k1, k2, k3, k4, if_true]
      rw [g1', g2, g3]
      right
      rcases hJ with ⟨x1, x2 | x2⟩ | ⟨x1, x2⟩
      · exact ⟨x1, x2⟩
      · exact absurd hb (hw _ x2)
      · exact absurd hb (hw _ x2)
    · simp only [hb]
      have k1 : (2 * b + 1) % cnt true = 2 * b + 1 := Nat.mod_eq_of_lt (by show 2 * b + 1 < 8; omega)
      unfold J8
      simp only [k1, Bool.false_eq_true, if_false, show (2 * b + 1) % 2 = 1 by omega, show (2 * b + 1) / 2 = b by omega, if_true]
      left
      rcases hJ with ⟨x1, -⟩ | ⟨x1, x2⟩
      · exact hW _ _ x1 a2 hb
      · exact x2
  · -- looking along a diagonal
    obtain ⟨b, rfl⟩ : ∃ b, j = 2 * b + 1 := ⟨j / 2, by omega⟩
    have hb4 : b < 4 := by omega
    unfold J8 at hJ
    simp only [show (2 * b + 1) % 2 = 1 by omega, show (2 * b + 1) / 2 = b by omega, if_true] at hJ
    obtain ⟨g1, g2, g3, g4, g5, g6, g7⟩ := geo (p := r) (a := b) r1 r2 hb4
    obtain ⟨a1, a2, a3, a4, a5, a6⟩ := geo_adj (p := r) (a := b) r1 r2 hb4
    rw [show nb8 r (2 * b + 1) = diag r b from rfl]
    by_cases hb : B (diag r b) = true
    · simp only [hb, if_true]
      have k1 : (2 * b + 1 + cnt true / 2 + 1) % cnt true = (2 * b + 6) % 8 := rfl
      have k2 : (2 * b + 6) % 8 % 2 = 0 := by omega
      have k3 : (2 * b + 6) % 8 / 2 = (b + 3) % 4 := by omega
      have k4 : ((b + 3) % 4 + 3) % 4 = (b + 2) % 4 := by omega
      unfold J8
      simp only [k1, k2, k3, k4, show ¬(0 = 1) by omega, if_false]
      rw [g6, g5]
      right
      refine ⟨hr, ?_⟩
      rcases hJ with x | ⟨-, x⟩
      · exact x
      · exact absurd hb (hw _ x)
    · simp only [hb]
      have k1 : (2 * b + 1 + 1) % cnt true = (2 * b + 2) % 8 := rfl
      have k2 : (2 * b + 2) % 8 % 2 = 0 := by omega
      have k3 : (2 * b + 2) % 8 / 2 = (b + 1) % 4 := by omega
      have k4 : ((b + 1) % 4 + 3) % 4 = b := by omega
      unfold J8
      simp only [k1, k2, k3, k4, Bool.false_eq_true, if_false, show ¬(0 = 1) by omega]
      left
      rcases hJ with x | ⟨x1, x2⟩
      · exact ⟨hW _ _ x a1 hb, Or.inl x⟩
      · exact ⟨x2, Or.inr x1⟩

theorem J8.start {W : Pix → Prop} (hB : InFrame w ht B) (hW : ∀ q q', W q → Adjacent .four q q' → IsW B q' → W q') {p : Pix} {a : Nat}
    (hp : B p = true) (ha : a < 4) (hw : W (nbA p a)) : J8 B W (p, 2 * a) := by
  obtain ⟨r1, r2, -⟩ := hB p hp
  have ej : ((a + 3) % 4 + 1) % 4 = a := by omega
  obtain ⟨a1, a2, a3, a4, a5, a6⟩ := geo_adj (p := p) (a := (a + 3) % 4) r1 r2 (by omega)
  rw [ej] at a2 a3
  unfold J8
  simp only [show 2 * a % 2 = 0 by omega, show 2 * a / 2 = a by omega, show ¬(0 = 1) by omega, if_false]
  by_cases hb : B (diag p ((a + 3) % 4)) = true
  · exact Or.inr ⟨hb, hw⟩
  · exact Or.inl ⟨hW _ _ hw a2.symm hb, Or.inr hw⟩

/-- Every pixel of the boundary at a side is a neighbour of the region of the background at that side. -/
theorem orb_faces (hB : InFrame w ht B) {p : Pix} {a : Nat} (hp : B p = true) (ha : a < 4) (hq : B (nbA p a) = false) {r : Pix} {j : Nat}
    (ho : Orb e B (p, ax e a) (r, j)) :
    ∃ q, Adjacent (rl e).dual r q ∧ Linked (rl e).dual (IsW B) (nbA p a) q := by
  have hq' : IsW B (nbA p a) := by simp [hq]
  have hr : B r = true := (ho.good (good_ax hp ha)).1
  obtain ⟨r1, r2, -⟩ := hB r hr
  cases e
  · have hW : ∀ q q', Linked .eight (IsW B) (nbA p a) q → Adjacent .eight q q' → IsW B q' → Linked .eight (IsW B) (nbA p a) q' :=
      fun q q' h1 h2 h3 => h1.step h2 h3
    have hJ : J4 B (Linked .eight (IsW B) (nbA p a)) (r, j) := by
      obtain ⟨k, hk⟩ := ho
      rw [← hk]
      clear hk
      induction k with
      | zero => exact J4.start hB hW hp ha hq' (.refl hq')
      | succ k ih => rw [Function.iterate_succ_apply']; exact ih.mu hB hW (iter_good (good_ax hp ha) k)
    have hj : j < 4 := (ho.good (good_ax hp ha)).2
    obtain ⟨⟨q, q1, q2⟩, h2⟩ := hJ
    refine ⟨q, ?_, h2 q q1 q2⟩
    show Adjacent .eight r q
    simp only [List.mem_cons, List.not_mem_nil, or_false] at q1
    rcases q1 with rfl | rfl | rfl
    · exact (geo_adj r1 r2 (by omega)).2.2.2.1
    · exact (geo_adj r1 r2 (by omega)).2.2.2.2.1
    · exact (geo_adj r1 r2 hj).2.2.2.1
  · have hW : ∀ q q', Linked .four (IsW B) (nbA p a) q → Adjacent .four q q' → IsW B q' → Linked .four (IsW B) (nbA p a) q' :=
      fun q q' h1 h2 h3 => h1.step h2 h3
    have hJ : J8 B (Linked .four (IsW B) (nbA p a)) (r, j) := by
      obtain ⟨k, hk⟩ := ho
      rw [← hk]
      clear hk
      induction k with
      | zero => exact J8.start hB hW hp ha (.refl hq')
      | succ k ih => rw [Function.iterate_succ_apply']; exact ih.mu hB (fun q hl => hl.right) hW (iter_good (good_ax hp ha) k)
    have hj : j < 8 := (ho.good (good_ax hp ha)).2
    have ad : ∀ {b : Nat}, b < 4 → Linked .four (IsW B) (nbA p a) (nbA r b) →
        ∃ q, Adjacent .four r q ∧ Linked .four (IsW B) (nbA p a) q := fun {b} hb hl => ⟨_, (geo_adj r1 r2 hb).2.2.2.2.2, hl⟩
    unfold J8 at hJ
    simp only at hJ
    split at hJ
    · rcases hJ with x | ⟨x, -⟩
      · exact ad (by omega) x
      · exact ad (by omega) x
    · rcases hJ with ⟨-, x | x⟩ | ⟨-, x⟩
      · exact ad (by omega) x
      · exact ad (by omega) x
      · exact ad (by omega) x

/-- The pixels of the boundary at a side. -/
theorem chain_faces (hB : InFrame w ht B) {p : Pix} {a : Nat} (hp : B p = true) (ha : a < 4) (hq : B (nbA p a) = false) {r : Pix} :
    r ∈ chain e B (p, ax e a) ↔ Conn e B p r ∧ ∃ q, Adjacent (rl e).dual r q ∧ Linked (rl e).dual (IsW B) (nbA p a) q := by
  rw [chain_mem hB (good_ax hp ha)]
  constructor
  · rintro ⟨j, ho⟩
    exact ⟨ho.conn (good_ax hp ha), orb_faces hB hp ha hq ho⟩
  · rintro ⟨hc, q, hadj, hl⟩
    have hr := hc.right
    have hqw := hl.right
    obtain ⟨r1, r2, -⟩ := hB r hr
    have side : ∀ b, b < 4 → Linked (rl e).dual (IsW B) (nbA p a) (nbA r b) → ∃ j, Orb e B (p, ax e a) (r, j) := by
      intro b hb hl'
      exact ⟨_, one_orbit hB ha hb hq (by simpa using hl'.right) hc hl'⟩
    cases e
    · obtain ⟨j, hj, rfl⟩ := (adj8_iff r1 r2).1 hadj
      rcases Nat.mod_two_eq_zero_or_one j with h0 | h0
      · obtain ⟨b, rfl⟩ : ∃ b, j = 2 * b := ⟨j / 2, by omega⟩
        exact side b (by omega) hl
      · obtain ⟨b, rfl⟩ : ∃ b, j = 2 * b + 1 := ⟨j / 2, by omega⟩
        have hb4 : b < 4 := by omega
        obtain ⟨g1, g2, g3, g4, g5, g6, g7⟩ := geo (p := r) (a := b) r1 r2 hb4
        obtain ⟨a1, a2, a3, a4, a5, a6⟩ := geo_adj (p := r) (a := b) r1 r2 hb4
        change Linked .eight (IsW B) (nbA p a) (diag r b) at hl
        change IsW B (diag r b) at hqw
        by_cases hb : B (nbA r b) = true
        · -- the corner is seen from the neighbour
          have hcx : Conn false B p (nbA r b) := hc.step (j := b) hb4 hb
          have hdw : B (nbA (nbA r b) ((b + 1) % 4)) = false := by rw [g7]; simpa using hqw
          have ho := one_orbit (e := false) hB ha (a' := (b + 1) % 4) (by omega) hq hdw hcx (by rw [g7]; exact hl)
          refine ⟨(b + 1) % 4, ho.trans (((Orb.next _).trans (Orb.next _)).trans ?_)⟩
          have m1 : mu false B (nbA r b, ax false ((b + 1) % 4)) = (nbA r b, (b + 2) % 4) := by
            unfold mu
            rw [show nb false (nbA r b) (ax false ((b + 1) % 4)) = nbA (nbA r b) ((b + 1) % 4) from rfl, hdw]
            have : ((b + 1) % 4 + 1) % 4 = (b + 2) % 4 := by omega
            simp [cnt, ax, this]
          have m2 : mu false B (nbA r b, (b + 2) % 4) = (r, (b + 1) % 4) := by
            unfold mu
            rw [show nb false (nbA r b) ((b + 2) % 4) = nbA (nbA r b) ((b + 2) % 4) from rfl, g1, hr]
            have : ((b + 2) % 4 + 3) % 4 = (b + 1) % 4 := by omega
            simp [cnt, this]
          rw [m1, m2]
          exact Orb.refl _
        · exact side b hb4 (hl.step a1.symm.weaken hb)
    · obtain ⟨b, hb, rfl⟩ := (adj4_iff r1 r2).1 hadj
      exact side b hb hl

/-! ### Every boundary is started -/

theorem crack_started (hB : InFrame w ht B) {p : Pix} {a : Nat} (hp : B p = true) (ha : a < 4) (hq : B (nbA p a) = false) :
    ∃ s ∈ starts e B (raster w ht), Orb e B (startSt e s) (p, ax e a) := by
  classical
  have g := good_ax (e := e) hp ha
  have hi := Orb.inv (e := e) (s := (p, ax e a)) hB
  obtain ⟨p0, h0, hc⟩ := exists_first (e := e) hB hp
  have mem : ∀ {q : Pix} {x : Bool}, B q = true → (q, x) ∈ startsAt e B q → (q, x) ∈ starts e B (raster w ht) := by
    intro q x hb hm
    obtain ⟨h1, h2, h3, h4⟩ := hB q hb
    exact List.mem_flatMap.2 ⟨q, mem_raster.2 ⟨h1, h3, h2, h4⟩, hm⟩
  by_cases hext : Orb e B (p, ax e a) (p0, ax e 3)
  · refine ⟨(p0, true), mem h0.1 ?_, hext.symm hB g⟩
    unfold startsAt
    rw [if_pos h0]; simp
  · have hw := wind_region hB g h0 hc hc
    rw [ind_neg hext] at hw
    have hcr := wind_cross hB hi ha hp hq
    rw [hw, ind_pos (Orb.refl _)] at hcr
    obtain ⟨y', -, hy'⟩ := wind_neg hB hi (x := (nbA p a).1) (y := (nbA p a).2) (by omega)
    -- the first lower side on the boundary
    have ex1 : ∃ y, ∃ x, Crack e B (Orb e B (p, ax e a)) (x, y) 1 := ⟨_, _, hy'⟩
    have ex2 := Nat.find_spec ex1
    have hf := Nat.find_spec ex2
    generalize hu : (Nat.find ex2, Nat.find ex1) = u at hf
    have min : ∀ v, Bef v u → ¬Crack e B (Orb e B (p, ax e a)) v 1 := by
      rintro ⟨x, y⟩ hb hcr
      rw [← hu] at hb
      rcases hb with hb | ⟨hb1, hb2⟩
      · exact Nat.find_min ex1 hb ⟨x, hcr⟩
      · exact Nat.find_min ex2 hb2 (by rw [← show y = Nat.find ex1 from hb1]; exact hcr)
    obtain ⟨hu1, hu2, hu3⟩ := hf
    have hole : IsHole e B u := by
      refine ⟨hu1, hu2, ?_⟩
      rintro (⟨v, v1, v2, v3⟩ | ⟨v, v1, v2, v3, v4⟩)
      · have gv := good_ax (e := e) v2.1 (show 3 < 4 by omega)
        have : v = p0 := v2.unique hB h0 ((v3.conn gv).trans (((hu3.conn g).symm hB).trans (hc.symm hB)))
        subst this
        exact hext (hu3.trans (v3.symm hB gv))
      · have gv := good_ax (e := e) v2 (show 1 < 4 by omega)
        exact min v v1 ⟨v2, v3, hu3.trans (v4.symm hB gv)⟩
    refine ⟨(u, false), mem hu1 ?_, hu3.symm hB g⟩
    unfold startsAt
    rw [if_pos hole]; simp

theorem starts_mem {l : List Pix} {s : Pix × Bool} : s ∈ starts e B l ↔ s.1 ∈ l ∧ ((s.2 = true ∧ IsFirst e B s.1) ∨ (s.2 = false ∧ IsHole e B s.1)) := by
  classical
  obtain ⟨p, x⟩ := s
  unfold starts startsAt
  rw [List.mem_flatMap]
  constructor
  · rintro ⟨q, hq, hm⟩
    rw [List.mem_append] at hm
    rcases hm with hm | hm
    · split at hm
      · next hf =>
        simp only [List.mem_singleton, Prod.mk.injEq] at hm
        obtain ⟨rfl, rfl⟩ := hm
        exact ⟨hq, Or.inl ⟨rfl, hf⟩⟩
      · cases hm
    · split at hm
      · next hf =>
        simp only [List.mem_singleton, Prod.mk.injEq] at hm
        obtain ⟨rfl, rfl⟩ := hm
        exact ⟨hq, Or.inr ⟨rfl, hf⟩⟩
      · cases hm
  · rintro ⟨hq, ⟨h1, h2⟩ | ⟨h1, h2⟩⟩
    · change x = true at h1; subst h1
      exact ⟨p, hq, by rw [if_pos h2]; simp⟩
    · change x = false at h1; subst h1
      exact ⟨p, hq, by rw [if_pos h2]; simp⟩

/-- At a start there is a side. -/
theorem starts_side (hB : InFrame w ht B) {l : List Pix} {s : Pix × Bool} (hs : s ∈ starts e B l) :
    B s.1 = true ∧ B (nbA s.1 (startAx s.2)) = false := by
  obtain ⟨-, ⟨h1, h2⟩ | ⟨h1, h2⟩⟩ := starts_mem.1 hs
  · rw [h1]; exact ⟨h2.1, h2.above hB⟩
  · rw [h1]; exact ⟨h2.1, h2.2.1⟩

theorem startAx_lt (x : Bool) : startAx x < 4 := by cases x <;> decide

/-! ### Outside and inside -/

theorem first_outer (hB : InFrame w ht B) {p : Pix} (hp : IsFirst e B p) : Outer (rl e) (IsB B) p (nbA p 3) := by
  obtain ⟨-, h2, -⟩ := hB p hp.1
  have free : ∀ x y, y < p.2 → ¬Linked (rl e) (IsB B) p (x, y) := by
    intro x y hy hl
    exact hp.2 (x, y) ((conn_iff hB).2 hl) (Or.inl hy)
  have up : ∀ {r : ConnectRule} {u v : Pix}, Adjacent .four u v → Adjacent r u v := by
    intro r u v h
    cases r
    · exact h
    · exact h.weaken
  have left : ∀ x y, y < p.2 → Linked (rl e).dual (fun u => ¬Linked (rl e) (IsB B) p u) (x, y) (0, y) := by
    intro x y hy
    induction x with
    | zero => exact .refl (free _ _ hy)
    | succ x ih =>
      exact ((Linked.refl (free _ _ hy)).step (up (by unfold Adjacent; simp)) (free x y hy)).trans ih
  have upw : ∀ y, y < p.2 → Linked (rl e).dual (fun u => ¬Linked (rl e) (IsB B) p u) (0, y) (0, 0) := by
    intro y hy
    induction y with
    | zero => exact .refl (free _ _ hy)
    | succ y ih =>
      exact ((Linked.refl (free _ _ hy)).step (up (by unfold Adjacent; simp)) (free 0 y (by omega))).trans (ih (by omega))
  have : nbA p 3 = (p.1, p.2 - 1) := rfl
  unfold Outer
  rw [this]
  exact (left _ _ (by omega)).trans (upw _ (by omega))

theorem hole_inner (hB : InFrame w ht B) {p : Pix} (hp : IsHole e B p) : ¬Outer (rl e) (IsB B) p (nbA p 1) := by
  classical
  intro hout
  -- the picture of this component only
  let C : Pix → Bool := fun u => decide (Conn e B p u)
  have hC : ∀ u, C u = true ↔ Conn e B p u := fun u => by simp [C]
  have hCB : ∀ u, C u = true → B u = true := fun u hu => ((hC u).1 hu).right
  have fC : InFrame w ht C := fun u hu => hB u (hCB u hu)
  have hmu : ∀ s, Good e C s → mu e C s = mu e B s := by
    intro s hs
    unfold mu
    have : C (nb e s.1 s.2) = B (nb e s.1 s.2) := by
      cases hb : B (nb e s.1 s.2)
      · cases hc : C (nb e s.1 s.2)
        · rfl
        · rw [hCB _ hc] at hb; cases hb
      · rw [hC]; exact ((hC _).1 hs.1).step hs.2 hb
    rw [this]
  have hit : ∀ s, Good e C s → ∀ k, (mu e C)^[k] s = (mu e B)^[k] s := by
    intro s hs k
    induction k with
    | zero => rfl
    | succ k ih => rw [Function.iterate_succ_apply', Function.iterate_succ_apply', hmu _ (iter_good hs k), ih]
  have conC : ∀ {u}, Conn e B p u → Conn e C p u := by
    intro u hu
    induction hu with
    | refl h => exact .refl ((hC _).2 (.refl h))
    | step hpq hj hb ih => exact ih.step hj ((hC _).2 (hpq.step hj hb))
  obtain ⟨p0, h0, hc⟩ := exists_first (e := e) hB hp.1
  have pC : C p = true := (hC p).2 (.refl hp.1)
  have h0C : IsFirst e C p0 := by
    refine ⟨(hC _).2 (hc.symm hB), fun q hq => h0.2 q ?_⟩
    exact hc.trans ((hC q).1 hq.right)
  have hcC : Conn e C p0 p := (conC (hc.symm hB)).symm fC
  have wC : C (nbA p 1) = false := by
    cases h : C (nbA p 1)
    · rfl
    · have := hCB _ h
      rw [hp.2.1] at this; cases this
  have g := good_ax (e := e) pC (show 1 < 4 by omega)
  have hi := Orb.inv (e := e) (s := (p, ax e 1)) fC
  have hreg := wind_region fC g h0C hcC hcC
  have hno : ¬Orb e C (p, ax e 1) (p0, ax e 3) := by
    rintro ⟨k, hk⟩
    rw [hit _ g] at hk
    have hoB : Orb e B (p, ax e 1) (p0, ax e 3) := ⟨k, hk⟩
    exact hp.2.2 (Or.inl ⟨p0, not_bef.1 (h0.2 p hc) |>.imp id id, h0, hoB.symm hB (good_ax hp.1 (by omega))⟩)
  rw [ind_neg hno, wind_cross fC hi (by omega) pC wC, ind_pos (Orb.refl _)] at hreg
  have hl : Linked (rl e).dual (IsW C) (nbA p 1) (0, 0) := by
    refine Linked.mono (fun u hu => ?_) hout
    intro hCu
    exact hu ((conn_iff hB).1 ((hC u).1 hCu))
  have := wind_linked fC hi hl
  rw [wind_row e _ (frame_row fC)] at this
  omega

/-! ### Closed paths -/

theorem blk_path (hB : InFrame w ht B) {s : St} (hs : Good e B s) (n : Nat) :
    (∀ i a b, (blk e B s n)[i]? = some a → (blk e B s n)[i + 1]? = some b → Adjacent (rl e) a b) ∧
    (∀ a, (blk e B s n).getLast? = some a → Adjacent (rl e) a ((mu e B)^[n] s).1) ∧
    (blk e B s n = [] → ((mu e B)^[n] s).1 = s.1) ∧ (∀ a, (blk e B s n).head? = some a → a = s.1) := by
  induction n with
  | zero => simp [blk]
  | succ n ih =>
    obtain ⟨i1, i2, i3, i4⟩ := ih
    have hg := iter_good hs n
    rw [blk, Function.iterate_succ_apply']
    generalize (mu e B)^[n] s = t at *
    obtain ⟨h1, h2, -⟩ := hB _ hg.1
    by_cases hb : isBlk e B t = true
    · rw [if_pos hb]
      have hm : (mu e B t).1 = nb e t.1 t.2 := by
        unfold mu; unfold isBlk at hb; rw [if_pos hb]
      refine ⟨?_, ?_, ?_, ?_⟩
      · intro i a b ha hbb
        have hi : i + 1 < (blk e B s n ++ [t.1]).length := (List.getElem?_eq_some_iff.1 hbb).1
        rw [List.length_append] at hi
        rw [List.getElem?_append_left (by simpa using hi)] at ha
        rcases Nat.lt_or_ge (i + 1) (blk e B s n).length with h | h
        · rw [List.getElem?_append_left h] at hbb
          exact i1 i a b ha hbb
        · have e1 : i + 1 = (blk e B s n).length := by simp at hi; omega
          rw [e1, List.getElem?_append_right (Nat.le_refl _), Nat.sub_self] at hbb
          have : t.1 = b := by simpa using hbb
          rw [← this]
          refine i2 a ?_
          rw [List.getLast?_eq_getElem?, ← e1]
          exact ha
      · intro a ha
        have : t.1 = a := by simpa using ha
        rw [← this, hm]
        exact (adj_iff h1 h2).2 ⟨_, hg.2, rfl⟩
      · intro hnil; simp at hnil
      · intro a ha
        by_cases hnil : blk e B s n = []
        · rw [hnil] at ha
          have : t.1 = a := by simpa using ha
          rw [← this]; exact i3 hnil
        · refine i4 a ?_
          rw [List.head?_append_of_ne_nil _ hnil] at ha
          exact ha
    · rw [if_neg hb, List.append_nil]
      have hm : (mu e B t).1 = t.1 := by
        unfold mu; unfold isBlk at hb; rw [if_neg hb]
      rw [hm]
      exact ⟨i1, i2, i3, i4⟩

theorem chain_path (hB : InFrame w ht B) {s : St} (hs : Good e B s) : ClosedPath (rl e) (IsB B) s.1 (chain e B s) := by
  obtain ⟨b1, b2, b3, b4⟩ := blk_path hB hs (Function.minimalPeriod (mu e B) s)
  rw [per_iter] at b2 b3
  have inside : ∀ q ∈ chain e B s, IsB B q := by
    intro q hq
    obtain ⟨j, ho⟩ := (chain_mem hB hs).1 hq
    exact (ho.good hs).1
  by_cases hnil : blk e B s (Function.minimalPeriod (mu e B) s) = []
  · have hch : chain e B s = [s.1] := by unfold chain; rw [if_pos hnil]
    refine ⟨by rw [hch]; rfl, inside, ?_, ?_, ?_⟩
    · intro i a b ha hb
      rw [hch] at hb
      simp at hb
    · intro hl; rw [hch] at hl; simp at hl
    · intro _ q hq ha
      obtain ⟨h1, h2, -⟩ := hB _ hs.1
      obtain ⟨j, hj, rfl⟩ := (adj_iff h1 h2).1 ha
      have hno : ∀ k, isBlk e B ((mu e B)^[k] s) = false := by
        intro k
        have hn := per_pos hB hs
        cases hb : isBlk e B ((mu e B)^[k] s)
        · rfl
        · have : ((mu e B)^[k % Function.minimalPeriod (mu e B) s] s).1 ∈ blk e B s (Function.minimalPeriod (mu e B) s) :=
            blk_mem.2 ⟨_, Nat.mod_lt _ hn, by rw [Function.iterate_mod_minimalPeriod_eq]; exact hb, rfl⟩
          rw [hnil] at this; cases this
      obtain ⟨p, d⟩ := s
      have hd : d < cnt e := hs.2
      have hrot : ∀ i, (mu e B)^[i] (p, d) = (p, (d + i) % cnt e) := by
        intro i
        induction i with
        | zero => simp [Nat.mod_eq_of_lt hd]
        | succ i ih =>
          have := hno i
          rw [Function.iterate_succ_apply', ih]
          rw [ih] at this
          unfold mu
          unfold isBlk at this
          rw [if_neg (by rw [this]; simp)]
          simp only [Prod.mk.injEq, true_and]
          rw [Nat.mod_add_mod, Nat.add_assoc]
      have := hno (j + cnt e - d)
      rw [hrot] at this
      unfold isBlk at this
      have e1 : (d + (j + cnt e - d)) % cnt e = j := by
        rw [show d + (j + cnt e - d) = j + cnt e by omega, Nat.add_mod_right, Nat.mod_eq_of_lt hj]
      simp only [e1] at this
      change B (nb e p j) = true at hq
      rw [this] at hq; cases hq
  · have hch : chain e B s = blk e B s (Function.minimalPeriod (mu e B) s) := by unfold chain; rw [if_neg hnil]
    refine ⟨?_, inside, by rw [hch]; exact b1, ?_, ?_⟩
    · rw [hch]
      cases hh : (blk e B s (Function.minimalPeriod (mu e B) s)).head? with
      | none => exact absurd (List.head?_eq_none_iff.1 hh) hnil
      | some a => rw [b4 a hh]
    · intro _ a ha
      rw [hch] at ha
      exact b2 a ha
    · intro hl
      exfalso
      rw [hch, List.length_eq_one_iff] at hl
      obtain ⟨x, hx⟩ := hl
      have h1 := b2 x (by rw [hx]; rfl)
      have h2 := b4 x (by rw [hx]; rfl)
      exact h1.ne h2

/-- States looking at a black neighbour, among the first `k` states from `s`. -/
def blkSt (e : Bool) (B : Pix → Bool) (s : St) (k : Nat) : List St :=
  ((List.range k).map (fun i => (mu e B)^[i] s)).filter (fun t => isBlk e B t)

theorem blkSt_succ (s : St) (k : Nat) : blkSt e B s (k + 1) =
    blkSt e B s k ++ (if isBlk e B ((mu e B)^[k] s) then [(mu e B)^[k] s] else []) := by
  unfold blkSt
  rw [List.range_succ, List.map_append, List.filter_append]
  congr 1
  simp only [List.map_cons, List.map_nil, List.filter_cons, List.filter_nil]

theorem blk_fst (s : St) (k : Nat) : blk e B s k = (blkSt e B s k).map Prod.fst := by
  induction k with
  | zero => rfl
  | succ k ih =>
    rw [blk, blkSt_succ, List.map_append, ih]
    split <;> rfl

theorem blk_next (s : St) (k : Nat) : blk e B s k ++ [((mu e B)^[k] s).1] = s.1 :: (blkSt e B s k).map (fun t => nb e t.1 t.2) := by
  induction k with
  | zero => rfl
  | succ k ih =>
    rw [blk, blkSt_succ, Function.iterate_succ_apply']
    generalize (mu e B)^[k] s = t at *
    by_cases hb : isBlk e B t = true
    · have hm : (mu e B t).1 = nb e t.1 t.2 := by
        unfold mu; unfold isBlk at hb; rw [if_pos hb]
      rw [if_pos hb, if_pos hb, ih, hm, List.map_append]; rfl
    · have hm : (mu e B t).1 = t.1 := by
        unfold mu; unfold isBlk at hb; rw [if_neg hb]
      rw [if_neg hb, if_neg hb, List.append_nil, List.append_nil, hm, ih]

theorem nb_inj {p : Pix} (h1 : 1 ≤ p.1) (h2 : 1 ≤ p.2) {i j : Nat} (hi : i < cnt e) (hj : j < cnt e) (h : nb e p i = nb e p j) : i = j := by
  obtain ⟨x, y⟩ := p
  simp only at h1 h2
  cases e
  · have hi : i < 4 := hi
    have hj : j < 4 := hj
    rcases lt4_cases hi with rfl | rfl | rfl | rfl <;> rcases lt4_cases hj with rfl | rfl | rfl | rfl <;>
      first | rfl | (exfalso; simp [nb, nb8] at h <;> omega)
  · have hi : i < 8 := hi
    have hj : j < 8 := hj
    rcases lt8_cases hi with rfl | rfl | rfl | rfl | rfl | rfl | rfl | rfl <;>
      rcases lt8_cases hj with rfl | rfl | rfl | rfl | rfl | rfl | rfl | rfl <;>
      first | rfl | (exfalso; simp [nb, nb8] at h <;> omega)

theorem chain_once (hB : InFrame w ht B) {s : St} (hs : Good e B s) {i j : Nat} (hij : i < j) (hj : j < (chain e B s).length)
    (he : (chain e B s)[i]? = (chain e B s)[j]?) :
    (chain e B s)[(i + 1) % (chain e B s).length]? ≠ (chain e B s)[(j + 1) % (chain e B s).length]? := by
  by_cases hnil : blk e B s (Function.minimalPeriod (mu e B) s) = []
  · have hch : chain e B s = [s.1] := by unfold chain; rw [if_pos hnil]
    rw [hch] at hj; simp at hj; omega
  have hch : chain e B s = blk e B s (Function.minimalPeriod (mu e B) s) := by unfold chain; rw [if_neg hnil]
  rw [hch] at hj he ⊢
  have hf := blk_fst (e := e) (B := B) s (Function.minimalPeriod (mu e B) s)
  have hn := blk_next (e := e) (B := B) s (Function.minimalPeriod (mu e B) s)
  rw [per_iter] at hn
  have hz : (blkSt e B s (Function.minimalPeriod (mu e B) s)).Nodup := (cycle_nodup s).filter _
  have hg : ∀ t ∈ blkSt e B s (Function.minimalPeriod (mu e B) s), Good e B t := by
    intro t ht
    obtain ⟨k, -, rfl⟩ := List.mem_map.1 (List.mem_filter.1 ht).1
    exact iter_good hs k
  generalize blk e B s (Function.minimalPeriod (mu e B) s) = c at *
  generalize blkSt e B s (Function.minimalPeriod (mu e B) s) = z at *
  have hlen : c.length = z.length := by rw [hf, List.length_map]
  have key : ∀ k < c.length, c[(k + 1) % c.length]? = z[k]?.map (fun t => nb e t.1 t.2) := by
    intro k hk
    have a1 : (c ++ [s.1])[k + 1]? = (z.map (fun t => nb e t.1 t.2))[k]? := by rw [hn]; rfl
    rw [List.getElem?_map] at a1
    rw [← a1]
    rcases Nat.lt_or_ge (k + 1) c.length with h | h
    · rw [Nat.mod_eq_of_lt h, List.getElem?_append_left h]
    · have e1 : k + 1 = c.length := by omega
      have a2 : (c ++ [s.1])[0]? = some s.1 := by rw [hn]; rfl
      rw [List.getElem?_append_left (by omega)] at a2
      rw [e1, Nat.mod_self, a2]
      simp
  rw [key i (by omega), key j hj]
  rw [hf, List.getElem?_map, List.getElem?_map] at he
  obtain ⟨zi, hzi⟩ : ∃ t, z[i]? = some t := ⟨z[i]'(by omega), List.getElem?_eq_getElem (by omega)⟩
  obtain ⟨zj, hzj⟩ : ∃ t, z[j]? = some t := ⟨z[j]'(by omega), List.getElem?_eq_getElem (by omega)⟩
  rw [hzi, hzj] at he ⊢
  simp only [Option.map_some, Option.some.injEq] at he
  simp only [Option.map_some, ne_eq, Option.some.injEq]
  intro hnb
  have gi := hg zi (List.mem_of_getElem? hzi)
  have gj := hg zj (List.mem_of_getElem? hzj)
  obtain ⟨p1, p2, -⟩ := hB _ gi.1
  rw [← he] at hnb
  have hd := nb_inj p1 p2 gi.2 gj.2 hnb
  have : zi = zj := Prod.ext he hd
  rw [this, ← hzj] at hzi
  exact absurd ((List.getElem?_inj (by omega) hz).1 hzi) (by omega)

end Boof
