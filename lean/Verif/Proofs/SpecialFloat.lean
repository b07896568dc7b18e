import Verif.Spec.SpecialFloat
import Verif.Proofs.RoundingRun
/-
Sums of values which may be infinite or not-a-number, and the runs of the mean blur.
-/
namespace Boof
open M
variable {V K : Type} [Field K] [LinearOrder K] [IsStrictOrderedRing K] [FloorRing K]

namespace FP
variable {rnd : K → Option K}

@[simp] theorem add_nan (a : FP K) : add rnd a nan = nan := by cases a <;> rfl
@[simp] theorem nan_add (a : FP K) : add rnd nan a = nan := by cases a <;> rfl
@[simp] theorem sub_nan (a : FP K) : sub rnd a nan = nan := by cases a <;> rfl
@[simp] theorem nan_sub (a : FP K) : sub rnd nan a = nan := by cases a <;> rfl
@[simp] theorem mul_nan (a : FP K) : mul rnd a nan = nan := by cases a <;> rfl
@[simp] theorem nan_mul (a : FP K) : mul rnd nan a = nan := by cases a <;> rfl
@[simp] theorem nan_div (a : FP K) : div rnd nan a = nan := by cases a <;> rfl

theorem foldO_total (s0 : FP K) (n : Nat) (v : Nat → FP K) :
    foldO n s0 (fun k s => some (add rnd s (v k))) = some (total rnd s0 n v) := by
  induction n with
  | zero => rfl
  | succ n ih => unfold foldO; rw [ih]; rfl

theorem total_nan {s0 : FP K} {n k : Nat} {v : Nat → FP K} (hk : k < n) (h : v k = nan) : total rnd s0 n v = nan := by
  induction n with
  | zero => omega
  | succ n ih =>
    show add rnd _ _ = nan
    rcases Nat.lt_or_ge k n with h1 | h1
    · rw [ih h1, nan_add]
    · obtain rfl : k = n := by omega
      rw [h, add_nan]

theorem total_congr {s0 : FP K} {n : Nat} {v w : Nat → FP K} (h : ∀ k, k < n → v k = w k) : total rnd s0 n v = total rnd s0 n w := by
  induction n with
  | zero => rfl
  | succ n ih =>
    show add rnd _ _ = add rnd _ _
    rw [ih (fun k hk => h k (by omega)), h n (by omega)]

theorem running_congr {kw p : Nat} {v w : Nat → FP K} (h : ∀ k, k < p + kw → v k = w k) :
    running rnd kw v p = running rnd kw w p := by
  induction p with
  | zero => exact total_congr (fun k hk => h k (by omega))
  | succ p ih =>
    show add rnd (sub rnd _ _) _ = add rnd (sub rnd _ _) _
    rw [ih (fun k hk => h k (by omega))]
    by_cases hkw : kw = 0
    · subst hkw; rw [h p (by omega), Nat.add_zero, h p (by omega)]
    · rw [h p (by omega), h (p + kw) (by omega)]

theorem running_nan {kw p k : Nat} {v : Nat → FP K} (hk : k < p + kw) (h : v k = nan) : running rnd kw v p = nan := by
  induction p with
  | zero => exact total_nan (by omega) h
  | succ p ih =>
    show add rnd (sub rnd _ _) _ = nan
    rcases Nat.lt_or_ge k (p + kw) with h1 | h1
    · rw [ih h1, nan_sub, nan_add]
    · obtain rfl : k = p + kw := by omega
      rw [h, add_nan]

/-- Which infinities went into a sum. -/
def Matches (P N : Prop) : FP K → Prop
  | num _ => ¬ P ∧ ¬ N
  | inf false => P ∧ ¬ N
  | inf true => ¬ P ∧ N
  | nan => P ∧ N

theorem Matches.congr {P N P' N' : Prop} {t : FP K} (h : Matches P N t) (hp : P ↔ P') (hn : N ↔ N') : Matches P' N' t := by
  rw [← propext hp, ← propext hn]; exact h

theorem round_num (ho : ∀ x, (rnd x).isSome) (x : K) : ∃ y, round rnd x = num y := by
  obtain ⟨y, e⟩ := Option.isSome_iff_exists.1 (ho x)
  exact ⟨y, by unfold round; rw [e]⟩

theorem Matches.add (ho : ∀ x, (rnd x).isSome) {P N : Prop} {t v : FP K} (h : Matches P N t) (hv : v ≠ nan) :
    Matches (P ∨ v = inf false) (N ∨ v = inf true) (FP.add rnd t v) := by
  cases v with
  | nan => exact absurd rfl hv
  | num y =>
    have e : Matches (P ∨ num y = inf false) (N ∨ num y = inf true) t := h.congr (by simp) (by simp)
    cases t with
    | num x =>
      obtain ⟨z, ez⟩ := round_num ho (x + y)
      show Matches _ _ (round rnd (x + y))
      rw [ez]; exact e
    | inf s => exact e
    | nan => exact e
  | inf s =>
    cases t with
    | num x => cases s <;> simp_all [FP.add, Matches]
    | inf t => cases s <;> cases t <;> simp_all [FP.add, Matches]
    | nan => simp_all [FP.add, Matches]

theorem Matches.sub (ho : ∀ x, (rnd x).isSome) {P N : Prop} {t : FP K} {y : K} (h : Matches P N t) :
    Matches P N (FP.sub rnd t (num y)) := by
  cases t with
  | num x =>
    obtain ⟨z, ez⟩ := round_num ho (x - y)
    show Matches _ _ (round rnd (x - y))
    rw [ez]; exact h
  | inf s => exact h
  | nan => exact h

theorem total_matches (ho : ∀ x, (rnd x).isSome) {n : Nat} {v : Nat → FP K} (hn : ∀ k, k < n → v k ≠ nan) :
    Matches (∃ k, k < n ∧ v k = inf false) (∃ k, k < n ∧ v k = inf true) (total rnd (num 0) n v) := by
  induction n with
  | zero => exact ⟨by rintro ⟨k, hk, -⟩; omega, by rintro ⟨k, hk, -⟩; omega⟩
  | succ n ih =>
    refine ((ih (fun k hk => hn k (by omega))).add ho (hn n (by omega))).congr ?_ ?_ <;>
    · constructor
      · rintro (⟨k, hk, e⟩ | e)
        · exact ⟨k, by omega, e⟩
        · exact ⟨n, by omega, e⟩
      · rintro ⟨k, hk, e⟩
        rcases Nat.lt_or_ge k n with h1 | h1
        · exact Or.inl ⟨k, h1, e⟩
        · obtain rfl : k = n := by omega
          exact Or.inr e

theorem running_matches (ho : ∀ x, (rnd x).isSome) {kw p : Nat} (hkw : 0 < kw) {v : Nat → FP K}
    (hn : ∀ k, k < p + kw → v k ≠ nan) (hi : ∀ k s, k < p → v k ≠ inf s) :
    Matches (∃ k, p ≤ k ∧ k < p + kw ∧ v k = inf false) (∃ k, p ≤ k ∧ k < p + kw ∧ v k = inf true) (running rnd kw v p) := by
  induction p with
  | zero =>
    refine (total_matches ho (fun k hk => hn k (by omega))).congr ?_ ?_ <;>
    · constructor
      · rintro ⟨k, hk, e⟩; exact ⟨k, by omega, by omega, e⟩
      · rintro ⟨k, -, hk, e⟩; exact ⟨k, by omega, e⟩
  | succ p ih =>
    have h1 := ih (fun k hk => hn k (by omega)) (fun k s hk => hi k s (by omega))
    obtain ⟨y, ey⟩ : ∃ y, v p = num y := by
      cases e : v p with
      | num y => exact ⟨y, rfl⟩
      | inf s => exact absurd e (hi p s (by omega))
      | nan => exact absurd e (hn p (by omega))
    show Matches _ _ (FP.add rnd (FP.sub rnd _ (v p)) _)
    rw [ey]
    refine ((h1.sub ho).add ho (hn (p + kw) (by omega))).congr ?_ ?_ <;>
    · constructor
      · rintro (⟨k, h1, h2, e⟩ | e)
        · refine ⟨k, ?_, by omega, e⟩
          rcases Nat.lt_or_ge p k with h3 | h3
          · exact h3
          · obtain rfl : k = p := by omega
            rw [ey] at e; cases e
        · exact ⟨p + kw, by omega, by omega, e⟩
      · rintro ⟨k, h1, h2, e⟩
        rcases Nat.lt_or_ge k (p + kw) with h3 | h3
        · exact Or.inl ⟨k, by omega, h3, e⟩
        · obtain rfl : k = p + kw := by omega
          exact Or.inr e

theorem add_sticky {a : FP K} {s : Bool} (h : a = inf s ∨ a = nan) (b : FP K) : add rnd a b = inf s ∨ add rnd a b = nan := by
  rcases h with rfl | rfl
  · cases b with
    | num y => exact Or.inl rfl
    | inf t => cases s <;> cases t <;> simp [add]
    | nan => exact Or.inr rfl
  · exact Or.inr (nan_add b)

theorem sub_sticky {a : FP K} {s : Bool} (h : a = inf s ∨ a = nan) (b : FP K) : sub rnd a b = inf s ∨ sub rnd a b = nan := by
  rcases h with rfl | rfl
  · cases b with
    | num y => exact Or.inl rfl
    | inf t => cases s <;> cases t <;> simp [sub]
    | nan => exact Or.inr rfl
  · exact Or.inr (nan_sub b)

theorem add_inf (a : FP K) (s : Bool) : add rnd a (inf s) = inf s ∨ add rnd a (inf s) = nan := by
  cases a with
  | num y => exact Or.inl rfl
  | inf t => cases s <;> cases t <;> simp [add]
  | nan => exact Or.inr rfl

theorem total_inf {s0 : FP K} {n k : Nat} {v : Nat → FP K} {s : Bool} (hk : k < n) (h : v k = inf s) :
    total rnd s0 n v = inf s ∨ total rnd s0 n v = nan := by
  induction n with
  | zero => omega
  | succ n ih =>
    show add rnd _ _ = _ ∨ add rnd _ _ = _
    rcases Nat.lt_or_ge k n with h1 | h1
    · exact add_sticky (ih h1) _
    · obtain rfl : k = n := by omega
      rw [h]; exact add_inf _ s

theorem running_inf {kw p k : Nat} {v : Nat → FP K} {s : Bool} (hp : p ≤ k) (hk : k < p + kw) (h : v k = inf s) :
    running rnd kw v p = inf s ∨ running rnd kw v p = nan := by
  induction p with
  | zero => exact total_inf (by omega) h
  | succ p ih =>
    show add rnd (sub rnd _ _) _ = _ ∨ add rnd (sub rnd _ _) _ = _
    rcases Nat.lt_or_ge k (p + kw) with h1 | h1
    · exact add_sticky (sub_sticky (ih (by omega) h1) _) _
    · obtain rfl : k = p + kw := by omega
      rw [h]; exact add_inf _ s

/-- When an infinity leaves the window the running sum is not-a-number from then on. -/
theorem running_leaves {kw p k : Nat} {v : Nat → FP K} {s : Bool} (hkw : 0 < kw) (hk : k < p) (h : v k = inf s) :
    running rnd kw v p = nan := by
  induction p with
  | zero => omega
  | succ p ih =>
    show add rnd (sub rnd _ _) _ = nan
    rcases Nat.lt_or_ge k p with h1 | h1
    · rw [ih h1, nan_sub, nan_add]
    · obtain rfl : k = p := by omega
      rcases running_inf (rnd := rnd) (kw := kw) (le_refl k) (by omega) h with e | e
      · rw [e, h]
        have : sub rnd (inf s) (inf s) = nan := by cases s <;> rfl
        rw [this, nan_add]
      · rw [e, nan_sub, nan_add]

theorem running_nan_iff (ho : ∀ x, (rnd x).isSome) {kw p : Nat} (hkw : 0 < kw) {v : Nat → FP K} :
    running rnd kw v p = nan ↔ (∃ k, k < p + kw ∧ v k = nan) ∨ (∃ k s, k < p ∧ v k = inf s) ∨
      (∃ i j, p ≤ i ∧ i < p + kw ∧ p ≤ j ∧ j < p + kw ∧ v i = inf false ∧ v j = inf true) := by
  constructor
  · intro e
    by_contra hc
    push Not at hc
    obtain ⟨h1, h2, h3⟩ := hc
    have := running_matches (rnd := rnd) ho hkw (p := p) (v := v) h1 (fun k s => h2 k s)
    rw [e] at this
    obtain ⟨⟨i, i1, i2, i3⟩, ⟨j, j1, j2, j3⟩⟩ := this
    exact h3 i j i1 i2 j1 j2 i3 j3
  · rintro (⟨k, hk, e⟩ | ⟨k, s, hk, e⟩ | ⟨i, j, i1, i2, j1, j2, ei, ej⟩)
    · exact running_nan hk e
    · exact running_leaves hkw hk e
    · rcases running_inf (rnd := rnd) i1 i2 ei with a | a
      · rcases running_inf (rnd := rnd) j1 j2 ej with b | b
        · rw [a] at b; cases b
        · exact b
      · exact a

theorem div_num_nan {a : FP K} {d : K} (hd : d ≠ 0) : div rnd a (num d) = nan ↔ a = nan := by
  cases a with
  | num x =>
    constructor
    · intro e
      change (if d = 0 then _ else round rnd (x / d)) = nan at e
      rw [if_neg hd] at e
      unfold round at e
      split at e <;> cases e
    · intro e; cases e
  | inf s =>
    constructor
    · intro e; cases e
    · intro e; cases e
  | nan => exact ⟨fun _ => rfl, fun _ => rfl⟩

theorem again_nan {a : FP K} : again rnd a = nan ↔ a = nan := by
  cases a with
  | num x =>
    constructor
    · intro e
      change round rnd x = nan at e
      unfold round at e
      split at e <;> cases e
    · intro e; cases e
  | inf s => exact Iff.rfl
  | nan => exact Iff.rfl

theorem mul_eq_nan {a b : FP K} : mul rnd a b = nan ↔
    a = nan ∨ b = nan ∨ (a = num 0 ∧ ∃ s, b = inf s) ∨ ((∃ s, a = inf s) ∧ b = num 0) := by
  have hr : ∀ x : K, round rnd x ≠ nan := by
    intro x e
    unfold round at e
    split at e <;> cases e
  cases a with
  | num x =>
    cases b with
    | num y => simp [mul, hr]
    | inf t => by_cases h : x = 0 <;> simp [mul, h]
    | nan => simp
  | inf s =>
    cases b with
    | num y => by_cases h : y = 0 <;> simp [mul, h]
    | inf t => simp [mul]
    | nan => simp
  | nan => simp

theorem total_nan_iff (ho : ∀ x, (rnd x).isSome) {n : Nat} {v : Nat → FP K} :
    total rnd (num 0) n v = nan ↔ (∃ k, k < n ∧ v k = nan) ∨ (∃ i j, i < n ∧ j < n ∧ v i = inf false ∧ v j = inf true) := by
  constructor
  · intro e
    by_contra hc
    push Not at hc
    obtain ⟨h1, h2⟩ := hc
    have := total_matches (rnd := rnd) ho (v := v) h1
    rw [e] at this
    obtain ⟨⟨i, i1, i2⟩, ⟨j, j1, j2⟩⟩ := this
    exact h2 i j i1 j1 i2 j2
  · rintro (⟨k, hk, e⟩ | ⟨i, j, i1, j1, ei, ej⟩)
    · exact total_nan hk e
    · rcases total_inf (rnd := rnd) (s0 := num 0) i1 ei with a | a
      · rcases total_inf (rnd := rnd) (s0 := num 0) j1 ej with b | b
        · rw [a] at b; cases b
        · exact b
      · exact a

end FP

/-! ## Running the mean blur -/

section run
variable {rnd : K → Option K} {r n : Nat} {g a : Gray} {h1 : Heap (FP K)} {F f : Nat → Nat → FP K}

theorem oneLaw_special (rnd : K → Option K) : (specialArith rnd).OneLaw := by
  intro s h t
  have : s = .num 1 := of_decide_eq_true h
  subst this
  show some (FP.div rnd t (.num 1)) = some (FP.again rnd t)
  cases t with
  | num x =>
    show some (if (1 : K) = 0 then _ else _) = _
    rw [if_neg one_ne_zero, div_one]; rfl
  | inf s =>
    show some (FP.inf (xor s (decide ((1 : K) < 0)))) = some (FP.inf s)
    rw [decide_eq_false (not_lt.2 zero_le_one)]; cases s <;> rfl
  | nan => rfl

theorem weight_special (kw o : Nat) (c : Nat → FP K) (n x : Nat) : weightAt (specialArith rnd) kw o c n x ≠ none := by
  unfold weightAt
  have := FP.foldO_total (rnd := rnd) (.num 0) (lastIn kw o n x - firstIn o x) (fun i => c (firstIn o x + i))
  change foldO _ (FP.num 0) (fun i w => some (FP.add rnd w (c (firstIn o x + i)))) ≠ none
  rw [this]; exact fun e => by cases e

theorem avg_special (n : Nat) (v : Nat → FP K) (x : Nat) :
    avgAt (specialArith rnd) (2 * r + 1) r (fun _ => FP.meanCoef rnd (2 * r + 1)) n v x = some (FP.localMean rnd r n v x) := by
  unfold avgAt FP.localMean
  have h1 := FP.foldO_total (rnd := rnd) (.num 0) (lastIn (2 * r + 1) r n x - firstIn r x)
    (fun i => FP.mul rnd (FP.meanCoef rnd (2 * r + 1)) (v (x + (firstIn r x + i) - r)))
  have h2 := FP.foldO_total (rnd := rnd) (.num 0) (lastIn (2 * r + 1) r n x - firstIn r x) (fun _ => FP.meanCoef rnd (2 * r + 1))
  change Option.bind (foldO _ (FP.num 0) (fun i t => some (FP.add rnd t (FP.mul rnd _ _)))) (fun total =>
    Option.bind (foldO _ (FP.num 0) (fun i w => some (FP.add rnd w _))) _) = _
  rw [h1, Option.bind_some, h2]; rfl

theorem slides_special (kw n : Nat) (v : Nat → FP K) :
    Slides (specialMean rnd) kw n v (FP.running rnd kw v) (fun p => FP.div rnd (FP.running rnd kw v p) (.round rnd (kw : K))) :=
  ⟨FP.foldO_total (.num 0) kw v, fun _ _ => rfl, fun _ _ => rfl⟩

theorem mkMeanX (E : GrowArray.Elem (FP K)) (hz : E.ms E.zero = E.zero) (h : Heap V) :
    ∃ k, FactoryKernel.mean1DX rnd E (2 * r + 1) h = .ok k h ∧ k.Is1D (2 * r + 1) r (fun _ => FP.meanCoef rnd (2 * r + 1)) := by
  obtain ⟨k, e, hk⟩ := (C43_table E hz (FP.num 1) (2 * r + 1) h).2 (by omega)
  have hl := hk.length
  unfold FactoryKernel.mean1DX
  rw [M.bind_ok e]
  unfold FactoryKernel.normalizeX
  rw [M.bind_ok (kernelSumO_run k (c := fun _ => FP.num 1) hk.size hk.coef (FP.foldO_total (.num 0) (2 * r + 1) (fun _ => FP.num 1)) h),
    hk.width]
  obtain ⟨k2, e2, f⟩ := (Kernel.Filled.refl k (fun _ => FP.meanCoef rnd (2 * r + 1))).loop (n := 2 * r + 1) (h := h)
    (body := fun i k => do
      let v ← k.get i
      k.put i (FP.div rnd v (FP.total rnd (.num 0) (2 * r + 1) (fun _ => FP.num 1)))) (R := fun i j => j = i) (by
    intro i k1 hi hf
    have : k1.get i h = .ok (FP.num 1) h := by
      unfold Kernel.get
      rw [hf.no, hk.coef i (by omega)]
      · rfl
      · rintro (q | ⟨i', a, b⟩)
        · exact q
        · omega
    rw [M.bind_ok this]
    obtain ⟨k3, e3, f3⟩ := hf.put (i := i) (by omega) (s := FP.meanCoef rnd (2 * r + 1)) rfl h
    exact ⟨k3, e3, f3⟩)
  refine ⟨k2, e2, by rw [f.width, hk.width], by rw [f.offset, hk.offset]; omega, by rw [f.size, hk.size], fun i hi => ?_⟩
  exact f.yes i (Or.inr ⟨i, hi, rfl⟩) (by omega)

theorem specialIndex {N b s k : Nat} (hx : ExactTo rnd N) (hN : N < P32) (hb : b + s * k ≤ N) (hk : 0 < k) (hs : k ≤ N) :
    (specialMean rnd).index b s k = some (wrap32 (b + s * k)) := by
  have h1 : s ≤ s * k := Nat.le_mul_of_pos_right s hk
  have hr : ∀ i, i ≤ N → FP.round rnd ((i : Nat) : K) = .num (i : K) := fun i hi => by unfold FP.round; rw [hx i hi]
  have e1 : FP.mul rnd (.num (s : K)) (.num (k : K)) = .num ((s * k : Nat) : K) := by
    show FP.round rnd ((s : K) * (k : K)) = _
    rw [← hr (s * k) (by omega)]; push_cast; rfl
  have e2 : FP.add rnd (.num (b : K)) (.num ((s * k : Nat) : K)) = .num ((b + s * k : Nat) : K) := by
    show FP.round rnd ((b : K) + ((s * k : Nat) : K)) = _
    rw [← hr _ hb]; push_cast; rfl
  show (match FP.add rnd (.round rnd (b : K)) (.mul rnd (.round rnd (s : K)) (.round rnd (k : K))) with
    | .num e => if -1 < e ∧ e < (P32 : K) then some ⌊e⌋.toNat else none
    | _ => none) = _
  rw [hr b (by omega), hr s (by omega), hr k hs, e1, e2]
  show (if _ then _ else _) = _
  rw [if_pos, wrap32_of_lt (by omega)]
  · rw [Int.floor_natCast, Int.toNat_natCast]
  · refine ⟨?_, ?_⟩
    · have : (0 : K) ≤ ((b + s * k : Nat) : K) := Nat.cast_nonneg _
      linarith
    · exact_mod_cast (by omega : b + s * k < P32)

theorem meanX_horizontal (E : GrowArray.Elem (FP K)) (hz : E.ms E.zero = E.zero)
    (hv : g.Valid h1) (ew : g.width = a.width) (eh : g.height = a.height) (ha : Pixels h1 g F a f)
    (hb : a.width + (2 * r + 1) ≤ 2147483648) (hlen : a.dataLength < 2147483648)
    (hF : ∀ x y, x < a.width → y < a.height → FP.meanLine rnd true r a.width (fun i => f i y) x = F x y) :
    Paints h1 g F (ConvolveImageMean.horizontalX rnd E a g r) (fun _ _ => True) := by
  have hbord : ∀ x y, x < a.width → y < a.height → (x < r ∨ a.width + r < x + (2 * r + 1)) →
      avgAt (specialArith rnd) (2 * r + 1) r (fun _ => FP.meanCoef rnd (2 * r + 1)) a.width (fun i => f i y) x = some (F x y) :=
    fun x y hx hy hb => by
      rw [← hF x y hx hy, avg_special]; unfold FP.meanLine; rw [if_neg (by omega)]
  refine mean_horizontal hv ew eh ha hb (mkMeanX E hz) (fun hk k hk' => ?_) (fun _ => hbord)
    (fun hkw y hy => ⟨FP.running rnd (2 * r + 1) (fun i => f i y), ?_⟩)
  · exact normalized_horizontalF (oneLaw_special rnd) hv ew eh hk' (by omega) hb ha hlen (fun x hx => weight_special _ _ _ _ _)
      (fun x y hx hy => hbord x y hx hy (by omega))
  · have := slides_special (rnd := rnd) (2 * r + 1) a.width (fun i => f i y)
    refine ⟨this.first, this.next, fun p hp => ?_⟩
    rw [this.last p hp, ← hF (p + r) y (by omega) hy]
    unfold FP.meanLine
    rw [if_pos (by refine ⟨rfl, ?_⟩; omega), Nat.add_sub_cancel]

theorem meanX_vertical (E : GrowArray.Elem (FP K)) (hz : E.ms E.zero = E.zero)
    (hv : g.Valid h1) (ew : g.width = a.width) (eh : g.height = a.height) (ha : Pixels h1 g F a f)
    (hb : a.height + (2 * r + 1) ≤ 2147483648) (hr : 0 < r) (hlen : a.dataLength < 2147483648)
    (hshape : 2 * r + 1 ≤ a.height ∨ a.width < 2 * r + 1)
    {N : Nat} (hxi : ExactTo rnd N) (hN : N < P32) (hidx : 2 * r + 1 ≤ a.width → a.dataLength + a.stride ≤ N)
    (hF : ∀ x y, x < a.width → y < a.height →
      FP.meanLine rnd (decide (2 * r + 1 ≤ a.width)) r a.height (fun i => f x i) y = F x y) :
    Paints h1 g F (ConvolveImageMean.verticalX rnd E a g r) (fun _ _ => True) := by
  refine mean_vertical hv ew eh ha hb hr hlen hshape (mkMeanX E hz) (fun hnar k hk => ?_)
    (fun y hy => weight_special _ _ _ _ _) (fun hkw x y hx hy hb => ?_)
    (fun hkw hkh b hb => ?_) (tot := fun x => FP.running rnd (2 * r + 1) (fun i => f x i)) (fun hkw hkh x hx' => ?_)
  · refine normalized_verticalF (oneLaw_special rnd) hv ew eh hk (by omega) hb ha hlen (fun _ _ _ => rfl)
      (fun y hy => weight_special _ _ _ _ _) (fun x y hx hy => ?_)
    rw [← hF x y hx hy, avg_special]; unfold FP.meanLine
    rw [if_neg (fun h => by have := of_decide_eq_true h.1; omega)]
  · rw [← hF x y hx hy, avg_special]; unfold FP.meanLine; rw [if_neg (by omega)]
  · have hi := hidx hkw
    have hs : 2 * r + 1 ≤ a.stride * (2 * r + 1) :=
      Nat.le_mul_of_pos_left _ (by have := ha.valid.rowLe; omega)
    have hfit := ha.valid.fits (2 * r) (by omega)
    have hmul : a.stride * (2 * r + 1) = 2 * r * a.stride + a.stride := by rw [Nat.mul_comm]; exact Nat.succ_mul _ _
    exact specialIndex hxi hN (by omega) (by omega) (by omega)
  · have := slides_special (rnd := rnd) (2 * r + 1) a.height (fun i => f x i)
    refine ⟨this.first, this.next, fun p hp => ?_⟩
    rw [this.last p hp, ← hF x (p + r) hx' (by omega)]
    unfold FP.meanLine
    rw [if_pos (by refine ⟨decide_eq_true hkw, ?_⟩; omega), Nat.add_sub_cancel]

end run
end Boof
