import Verif.Proofs.SpecialFloat
import Verif.Props.Convolve
import Verif.Props.Rounding
import Verif.Props.BinaryOps
import Verif.Props.Statistics
/-
C124: infinities and not-a-number in the pixels of float images.
-/
namespace Boof
open M
variable {V K : Type} [Field K] [LinearOrder K] [IsStrictOrderedRing K] [FloorRing K]
variable {rnd : K → Option K}

/-! ## Convolution -/

/-- When the product of coefficient `c` and pixel `v` is not-a-number. -/
def BadProduct (c v : FP K) : Prop :=
  c = .nan ∨ v = .nan ∨ (c = .num 0 ∧ ∃ s, v = .inf s) ∨ ((∃ s, c = .inf s) ∧ v = .num 0)

theorem row_special (kw o : Nat) (c : Nat → FP K) (p : Int → Int → FP K) (x y : Nat) :
    (rowAt (specialArith rnd) kw o c p x y).bind (specialArith rnd).out =
      some (.again rnd (.dot rnd kw c (fun k => p ((x : Int) + k - o) y))) := by
  unfold rowAt FP.dot
  have := FP.foldO_total (rnd := rnd) (.num 0) kw (fun k => FP.mul rnd (c k) (p ((x : Int) + k - o) y))
  change (foldO kw (FP.num 0) (fun k s => some (FP.add rnd s _))).bind _ = _
  rw [this]; rfl

theorem col_special (kw o : Nat) (c : Nat → FP K) (p : Int → Int → FP K) (x y : Nat) :
    (colAt (specialArith rnd) kw o c p x y).bind (specialArith rnd).out =
      some (.again rnd (.dot rnd kw c (fun k => p x ((y : Int) + k - o)))) := by
  unfold colAt FP.dot
  have := FP.foldO_total (rnd := rnd) (.num 0) kw (fun k => FP.mul rnd (c k) (p x ((y : Int) + k - o)))
  change (foldO kw (FP.num 0) (fun k s => some (FP.add rnd s _))).bind _ = _
  rw [this]; rfl

theorem box_special (kw o : Nat) (c : Nat → Nat → FP K) (p : Int → Int → FP K) (x y : Nat) :
    (boxAt (specialArith rnd) kw o c p x y).bind (specialArith rnd).out =
      some (.again rnd (.box rnd kw c (fun i j => p ((x : Int) + i - o) ((y : Int) + j - o)) kw)) := by
  suffices ∀ m, foldO m (FP.num 0) (fun j s => foldO kw s (fun i s => (specialArith rnd).mac s (c i j)
      (p ((x : Int) + i - o) ((y : Int) + j - o)))) =
      some (FP.box rnd kw c (fun i j => p ((x : Int) + i - o) ((y : Int) + j - o)) m) by
    unfold boxAt
    rw [show (specialArith rnd).zero = FP.num 0 from rfl, this]; rfl
  intro m
  induction m with
  | zero => rfl
  | succ m ih =>
    unfold foldO
    rw [ih, Option.bind_some]
    exact FP.foldO_total _ kw (fun k => FP.mul rnd (c k m) (p ((x : Int) + k - o) ((y : Int) + m - o)))

theorem FP.box_nan {kw m i j : Nat} {c v : Nat → Nat → FP K} (hi : i < kw) (hj : j < m) (h : FP.mul rnd (c i j) (v i j) = .nan) :
    FP.box rnd kw c v m = .nan := by
  induction m with
  | zero => omega
  | succ m ih =>
    show FP.total rnd _ kw _ = .nan
    rcases Nat.lt_or_ge j m with h1 | h1
    · rw [ih h1]
      have : ∀ n, ∀ w : Nat → FP K, FP.total rnd .nan n w = .nan := by
        intro n w
        induction n with
        | zero => rfl
        | succ n ih => show FP.add rnd _ _ = _; rw [ih, FP.nan_add]
      exact this _ _
    · obtain rfl : j = m := by omega
      exact FP.total_nan hi h

/-- The rows of a float image are convolved whatever its values are; the value at a pixel is the sum of the products of the
coefficients with the values under them, added from the left, and not-a-number if one of the products is. -/
theorem C124_horizontal (z : FP K) {k : Kernel (FP K)} {kw o : Nat} {c : Nat → FP K} (b : Border (FP K))
    (hb : b = .extend ∨ ∃ v, b = .value v) {h : Heap (FP K)} {input output : Gray} {f : Nat → Nat → FP K}
    (hi : input.Valid h) (ho : output.Valid h) (hf : input.Shows h f)
    (hc : output.CanBe input.width input.height) (hs : input.Sep output input.width input.height)
    (hk : k.Is1D kw o c) (hok : o < kw) (hw : input.width + kw ≤ 2147483648) (hh : input.height < 2147483648) :
    ∃ out h' F, ConvolveImage.horizontal z (specialArith rnd) k b input output h = .ok out h' ∧
      Produced h h' output out input.width input.height F ∧ input.Shows h' f ∧
      ∀ x y, x < input.width → y < input.height →
        F x y = .again rnd (.dot rnd kw c (fun k => b.ext input.width input.height f ((x : Int) + k - o) y)) ∧
        ((∃ k, k < kw ∧ BadProduct (c k) (b.ext input.width input.height f ((x : Int) + k - o) y)) → F x y = .nan) := by
  obtain ⟨out, h', e, p, -, s⟩ := C47_horizontal z (specialArith rnd) b hb hi ho hf hc hs hk hok hw hh
    (fun x y _ _ => row_special kw o c _ x y)
  refine ⟨out, h', _, e, p, s, fun x y _ _ => ⟨rfl, ?_⟩⟩
  rintro ⟨j, hj, hbad⟩
  exact FP.again_nan.2 (FP.total_nan hj (FP.mul_eq_nan.2 hbad))

/-- The same for columns. -/
theorem C124_vertical (z : FP K) {k : Kernel (FP K)} {kw o : Nat} {c : Nat → FP K} (b : Border (FP K))
    (hb : b = .extend ∨ ∃ v, b = .value v) {h : Heap (FP K)} {input output : Gray} {f : Nat → Nat → FP K}
    (hi : input.Valid h) (ho : output.Valid h) (hf : input.Shows h f)
    (hc : output.CanBe input.width input.height) (hs : input.Sep output input.width input.height)
    (hk : k.Is1D kw o c) (hok : o < kw) (hh : input.height + kw ≤ 2147483648) (hw : input.width < 2147483648) :
    ∃ out h' F, ConvolveImage.vertical z (specialArith rnd) k b input output h = .ok out h' ∧
      Produced h h' output out input.width input.height F ∧ input.Shows h' f ∧
      ∀ x y, x < input.width → y < input.height →
        F x y = .again rnd (.dot rnd kw c (fun k => b.ext input.width input.height f x ((y : Int) + k - o))) ∧
        ((∃ k, k < kw ∧ BadProduct (c k) (b.ext input.width input.height f x ((y : Int) + k - o))) → F x y = .nan) := by
  obtain ⟨out, h', e, p, -, s⟩ := C48_vertical z (specialArith rnd) b hb hi ho hf hc hs hk hok hh hw
    (fun x y _ _ => col_special kw o c _ x y)
  refine ⟨out, h', _, e, p, s, fun x y _ _ => ⟨rfl, ?_⟩⟩
  rintro ⟨j, hj, hbad⟩
  exact FP.again_nan.2 (FP.total_nan hj (FP.mul_eq_nan.2 hbad))

/-- The same for kernels with two dimensions. -/
theorem C124_convolve (z : FP K) {k : Kernel (FP K)} {kw o : Nat} {c : Nat → Nat → FP K} (b : Border (FP K))
    (hb : b = .extend ∨ ∃ v, b = .value v) {h : Heap (FP K)} {input output : Gray} {f : Nat → Nat → FP K}
    (hi : input.Valid h) (ho : output.Valid h) (hf : input.Shows h f)
    (hc : output.CanBe input.width input.height) (hs : input.Sep output input.width input.height)
    (hk : k.Is2D kw o c) (hok : o < kw) (hkw : kw < 65536)
    (hw : input.width + kw ≤ 2147483648) (hh : input.height + kw ≤ 2147483648) :
    ∃ out h' F, ConvolveImage.convolve z (specialArith rnd) k b input output h = .ok out h' ∧
      Produced h h' output out input.width input.height F ∧ input.Shows h' f ∧
      ∀ x y, x < input.width → y < input.height →
        F x y = .again rnd (.box rnd kw c
          (fun i j => b.ext input.width input.height f ((x : Int) + i - o) ((y : Int) + j - o)) kw) ∧
        ((∃ i j, i < kw ∧ j < kw ∧
          BadProduct (c i j) (b.ext input.width input.height f ((x : Int) + i - o) ((y : Int) + j - o))) → F x y = .nan) := by
  obtain ⟨out, h', e, p, -, s⟩ := C49_convolve z (specialArith rnd) b hb hi ho hf hc hs hk hok hkw hw hh
    (fun x y _ _ => box_special kw o c _ x y)
  refine ⟨out, h', _, e, p, s, fun x y _ _ => ⟨rfl, ?_⟩⟩
  rintro ⟨i, j, hi, hj, hbad⟩
  exact FP.again_nan.2 (FP.box_nan hi hj (FP.mul_eq_nan.2 hbad))

/-- When nothing overflows these are the only not-a-numbers, except where one product is `+∞` and another `-∞`. -/
theorem C124_row_exact (ho : ∀ x, (rnd x).isSome) {kw : Nat} {c v : Nat → FP K} :
    FP.again rnd (FP.dot rnd kw c v) = .nan ↔ (∃ k, k < kw ∧ BadProduct (c k) (v k)) ∨
      (∃ i j, i < kw ∧ j < kw ∧ FP.mul rnd (c i) (v i) = .inf false ∧ FP.mul rnd (c j) (v j) = .inf true) := by
  rw [FP.again_nan]
  unfold FP.dot
  rw [FP.total_nan_iff ho]
  refine or_congr ?_ Iff.rfl
  constructor
  · rintro ⟨k, hk, e⟩; exact ⟨k, hk, FP.mul_eq_nan.1 e⟩
  · rintro ⟨k, hk, e⟩; exact ⟨k, hk, FP.mul_eq_nan.2 e⟩

/-! ## The mean blur -/

theorem FP.localMean_nan {r n x j : Nat} {v : Nat → FP K} (hx : x < n) (hj : j < n) (h1 : x ≤ j + r) (h2 : j ≤ x + r)
    (h : v j = .nan) : FP.localMean rnd r n v x = .nan := by
  unfold FP.localMean
  have : FP.dot rnd (lastIn (2 * r + 1) r n x - firstIn r x) (fun _ => FP.meanCoef rnd (2 * r + 1))
      (fun i => v (x + (firstIn r x + i) - r)) = .nan := by
    refine FP.total_nan (k := j + r - x - firstIn r x) ?_ ?_
    · unfold lastIn firstIn; omega
    · show FP.mul rnd _ (v (x + (firstIn r x + (j + r - x - firstIn r x)) - r)) = _
      rw [show x + (firstIn r x + (j + r - x - firstIn r x)) - r = j by unfold firstIn; omega, h, FP.mul_nan]
  show FP.div rnd (FP.dot rnd _ _ _) _ = _
  rw [this, FP.nan_div]

theorem FP.localMean_congr {r n x : Nat} {v w : Nat → FP K} (hx : x < n)
    (h : ∀ j, j < n → x ≤ j + r → j ≤ x + r → v j = w j) : FP.localMean rnd r n v x = FP.localMean rnd r n w x := by
  unfold FP.localMean FP.dot
  have : ∀ k, k < lastIn (2 * r + 1) r n x - firstIn r x → v (x + (firstIn r x + k) - r) = w (x + (firstIn r x + k) - r) := by
    intro k hk
    unfold lastIn firstIn at *
    exact h _ (by omega) (by omega) (by omega)
  show FP.div rnd (FP.total rnd _ _ _) _ = FP.div rnd (FP.total rnd _ _ _) _
  rw [FP.total_congr (w := fun k => FP.mul rnd (FP.meanCoef rnd (2 * r + 1)) (w (x + (firstIn r x + k) - r)))
    (fun k hk => congrArg (FP.mul rnd _) (this k hk))]

/-- What is known of the blurred value at `x` of a line of `n` values `v`. -/
structure FP.Blurred (v : Nat → FP K) (slides : Bool) (r n x : Nat) (out : FP K) : Prop where
  /-- not-a-number in the window gives not-a-number -/
  window : ∀ j, j < n → x ≤ j + r → j ≤ x + r → v j = .nan → out = .nan
  /-- where running sums are used, not-a-number anywhere before the end of the window gives not-a-number -/
  before : slides = true → r ≤ x → x + r < n → ∀ j, j ≤ x + r → v j = .nan → out = .nan
  /-- and an infinity anywhere before the window gives not-a-number -/
  infinity : slides = true → r ≤ x → x + r < n → ∀ j s, j + r < x → v j = .inf s → out = .nan

theorem FP.meanLine_blurred {slides : Bool} {r n x : Nat} {v : Nat → FP K} (hx : x < n) :
    FP.Blurred v slides r n x (FP.meanLine rnd slides r n v x) := by
  have hsl : slides = true → r ≤ x → x + r < n →
      FP.meanLine rnd slides r n v x = FP.div rnd (FP.running rnd (2 * r + 1) v (x - r)) (.round rnd ((2 * r + 1 : Nat) : K)) := by
    intro h1 h2 h3
    unfold FP.meanLine; rw [if_pos ⟨h1, h2, h3⟩]
  refine ⟨fun j hj h1 h2 e => ?_, fun h1 h2 h3 j hj e => ?_, fun h1 h2 h3 j s hj e => ?_⟩
  · by_cases hc : slides = true ∧ r ≤ x ∧ x + r < n
    · rw [hsl hc.1 hc.2.1 hc.2.2, FP.running_nan (k := j) (by omega) e, FP.nan_div]
    · unfold FP.meanLine
      rw [if_neg hc]
      exact FP.localMean_nan hx hj h1 h2 e
  · rw [hsl h1 h2 h3, FP.running_nan (k := j) (by omega) e, FP.nan_div]
  · rw [hsl h1 h2 h3, FP.running_leaves (k := j) (by omega) (by omega) e, FP.nan_div]

/-- The horizontal mean blur of a float image is defined whatever its values are: every pixel gets the average of the values
in its window (as `FP.meanLine` computes it).  A value which is not-a-number spoils every window it is in, and beyond that
every full window to the right of it in its row, because of the running sums; so does an infinity for the windows to the right
of it.  MISSING for the full property, which asks that only the windows which contain such a value are spoilt: see
`C124_mean_refuted`. -/
theorem C124_mean_horizontal_partial (E : GrowArray.Elem (FP K)) (hz : E.ms E.zero = E.zero)
    {h : Heap (FP K)} {input output : Gray} {f : Nat → Nat → FP K} {r : Nat}
    (hi : input.Valid h) (ho : output.Valid h) (hf : input.Shows h f) (hdis : input.Disjoint output)
    (ew : output.width = input.width) (eh : output.height = input.height)
    (hb : input.width + (2 * r + 1) ≤ 2147483648) (hl : input.dataLength < 2147483648) :
    ∃ (F : Nat → Nat → FP K) (h' : Heap (FP K)), ConvolveImageMean.horizontalX rnd E input output r h = .ok () h' ∧
      Painted h h' output (fun x y => some (F x y)) ∧ input.Shows h' f ∧
      ∀ x y, x < input.width → y < input.height →
        F x y = .meanLine rnd true r input.width (fun i => f i y) x ∧
        FP.Blurred (fun i => f i y) true r input.width x (F x y) := by
  obtain ⟨_, h', e, p⟩ := (meanX_horizontal (rnd := rnd) E hz ho ew eh
    (F := fun x y => FP.meanLine rnd true r input.width (fun i => f i y) x) (hdis.pixels hi hf) hb hl
    (fun x y hx hy => rfl)).done (fun _ _ _ _ => trivial)
  exact ⟨_, h', e, p, (p.reads ho hi hdis hf).2, fun x y hx hy => ⟨rfl, FP.meanLine_blurred hx⟩⟩

/-- The same for columns; the conditions are those of `C84_mean_vertical_partial`. -/
theorem C124_mean_vertical_partial (E : GrowArray.Elem (FP K)) (hz : E.ms E.zero = E.zero)
    {h : Heap (FP K)} {input output : Gray} {f : Nat → Nat → FP K} {r N : Nat}
    (hi : input.Valid h) (ho : output.Valid h) (hf : input.Shows h f) (hdis : input.Disjoint output)
    (ew : output.width = input.width) (eh : output.height = input.height) (hr : 0 < r)
    (hb : input.height + (2 * r + 1) ≤ 2147483648) (hl : input.dataLength < 2147483648)
    (hshape : 2 * r + 1 ≤ input.height ∨ input.width < 2 * r + 1)
    (hxi : ExactTo rnd N) (hN : N < P32) (hidx : 2 * r + 1 ≤ input.width → input.dataLength + input.stride ≤ N) :
    ∃ (F : Nat → Nat → FP K) (h' : Heap (FP K)), ConvolveImageMean.verticalX rnd E input output r h = .ok () h' ∧
      Painted h h' output (fun x y => some (F x y)) ∧ input.Shows h' f ∧
      ∀ x y, x < input.width → y < input.height →
        F x y = .meanLine rnd (decide (2 * r + 1 ≤ input.width)) r input.height (fun i => f x i) y ∧
        FP.Blurred (fun i => f x i) (decide (2 * r + 1 ≤ input.width)) r input.height y (F x y) := by
  obtain ⟨_, h', e, p⟩ := (meanX_vertical (rnd := rnd) E hz ho ew eh
    (F := fun x y => FP.meanLine rnd (decide (2 * r + 1 ≤ input.width)) r input.height (fun i => f x i) y)
    (hdis.pixels hi hf) hb hr hl hshape hxi hN hidx (fun x y hx hy => rfl)).done (fun _ _ _ _ => trivial)
  exact ⟨_, h', e, p, (p.reads ho hi hdis hf).2, fun x y hx hy => ⟨rfl, FP.meanLine_blurred hy⟩⟩

/-- Values behind the window have no effect: lines which agree up to the end of the window have the same average there. -/
theorem C124_mean_left {slides : Bool} {r n x : Nat} {v w : Nat → FP K} (hx : x < n) (h : ∀ j, j ≤ x + r → v j = w j) :
    FP.meanLine rnd slides r n v x = FP.meanLine rnd slides r n w x := by
  unfold FP.meanLine
  split
  · rw [FP.running_congr (fun k hk => h k (by omega))]
  · exact FP.localMean_congr hx (fun j _ _ hj => h j hj)

/-- Where no running sum is used only the window counts. -/
theorem C124_mean_border {slides : Bool} {r n x : Nat} {v w : Nat → FP K} (hx : x < n)
    (hs : slides = false ∨ x < r ∨ n ≤ x + r) (h : ∀ j, j < n → x ≤ j + r → j ≤ x + r → v j = w j) :
    FP.meanLine rnd slides r n v x = FP.meanLine rnd slides r n w x := by
  unfold FP.meanLine
  have hc : ¬ (slides = true ∧ r ≤ x ∧ x + r < n) := by
    rintro ⟨h1, h2, h3⟩
    rcases hs with h4 | h4 | h4
    · rw [h1] at h4; cases h4
    · omega
    · omega
  rw [if_neg hc, if_neg hc]
  exact FP.localMean_congr hx h

/-- Exactly when a full window gives not-a-number, for arithmetic which does not overflow. -/
theorem C124_mean_exact (ho : ∀ x, (rnd x).isSome) {r n x : Nat} {v : Nat → FP K} (h1 : r ≤ x) (h2 : x + r < n)
    (hk : rnd ((2 * r + 1 : Nat) : K) ≠ some 0) :
    FP.meanLine rnd true r n v x = .nan ↔ (∃ j, j ≤ x + r ∧ v j = .nan) ∨ (∃ j s, j + r < x ∧ v j = .inf s) ∨
      (∃ i j, x ≤ i + r ∧ i ≤ x + r ∧ x ≤ j + r ∧ j ≤ x + r ∧ v i = .inf false ∧ v j = .inf true) := by
  unfold FP.meanLine
  rw [if_pos ⟨rfl, h1, h2⟩]
  obtain ⟨d, ed⟩ := Option.isSome_iff_exists.1 (ho ((2 * r + 1 : Nat) : K))
  have er : FP.round rnd ((2 * r + 1 : Nat) : K) = .num d := by unfold FP.round; rw [ed]
  rw [er, FP.div_num_nan (fun e => hk (by rw [ed, e])), FP.running_nan_iff ho (by omega)]
  refine or_congr ?_ (or_congr ?_ ?_)
  · exact ⟨fun ⟨j, a, b⟩ => ⟨j, by omega, b⟩, fun ⟨j, a, b⟩ => ⟨j, by omega, b⟩⟩
  · exact ⟨fun ⟨j, s, a, b⟩ => ⟨j, s, by omega, b⟩, fun ⟨j, s, a, b⟩ => ⟨j, s, by omega, b⟩⟩
  · exact ⟨fun ⟨i, j, a, b, c, d, e, f⟩ => ⟨i, j, by omega, by omega, by omega, by omega, e, f⟩,
      fun ⟨i, j, a, b, c, d, e, f⟩ => ⟨i, j, by omega, by omega, by omega, by omega, e, f⟩⟩

/-! ## Threshold -/

theorem FP.le_gt (a b : FP K) : FP.gt a b = !FP.le a b ↔ a ≠ .nan ∧ b ≠ .nan := by
  cases a with
  | num x =>
    cases b with
    | num y =>
      refine iff_of_true ?_ ⟨by simp, by simp⟩
      show decide (y < x) = !decide (x ≤ y)
      by_cases h : x ≤ y
      · rw [decide_eq_true h, decide_eq_false (not_lt.2 h)]; rfl
      · rw [decide_eq_false h, decide_eq_true (not_le.1 h)]; rfl
    | inf t => cases t <;> simp [FP.gt, FP.lt, FP.le]
    | nan => simp [FP.gt, FP.lt, FP.le]
  | inf s =>
    cases b with
    | num y => cases s <;> simp [FP.gt, FP.lt, FP.le]
    | inf t => cases s <;> cases t <;> simp [FP.gt, FP.lt, FP.le]
    | nan => cases s <;> simp [FP.gt, FP.lt, FP.le]
  | nan => cases b <;> simp [FP.gt, FP.lt, FP.le]

/-- Thresholding a float image in the two directions gives complementary results exactly at the pixels which are not
not-a-number, provided the threshold is not; otherwise both results are 0. -/
theorem C124_threshold {h hD hU : Heap (FP K)} {input out1 out2 o1 o2 : Gray} {f : Nat → Nat → FP K} (bit : Bool → FP K)
    (hbit : bit true ≠ bit false) (z thr : FP K) (hv : input.Valid h) (ho1 : out1.Valid h) (ho2 : out2.Valid h)
    (hf : input.Shows h f) (hc1 : out1.CanBe input.width input.height) (hc2 : out2.CanBe input.width input.height)
    (hs1 : input.SepOrSame out1 input.width input.height) (hs2 : input.SepOrSame out2 input.width input.height)
    (rD : ThresholdOps.threshold FP.le FP.gt bit z input thr true out1 h = .ok o1 hD)
    (rU : ThresholdOps.threshold FP.le FP.gt bit z input thr false out2 h = .ok o2 hU)
    {x y : Nat} (hx : x < input.width) (hy : y < input.height) :
    ((∃ b, hD.px o1 x y = some (bit b) ∧ hU.px o2 x y = some (bit (!b))) ↔ f x y ≠ .nan ∧ thr ≠ .nan) ∧
    (f x y = .nan ∨ thr = .nan → hD.px o1 x y = some (bit false) ∧ hU.px o2 x y = some (bit false)) := by
  obtain ⟨o, h', e, p, -⟩ := C33_threshold FP.le FP.gt bit z thr true hv ho1 hf hc1 hs1
  rw [rD] at e; cases e
  obtain ⟨o', h'', e', p', -⟩ := C33_threshold FP.le FP.gt bit z thr false hv ho2 hf hc2 hs2
  rw [rU] at e'; cases e'
  have q : hD.px o1 x y = some (bit (FP.le (f x y) thr)) := p.pix x y hx hy
  have q' : hU.px o2 x y = some (bit (FP.gt (f x y) thr)) := p'.pix x y hx hy
  have inj : ∀ a b, bit a = bit b → a = b := by
    intro a b e
    cases a <;> cases b <;> first | rfl | exact absurd e hbit | exact absurd e.symm hbit
  constructor
  · rw [← FP.le_gt]
    constructor
    · rintro ⟨b, e1, e2⟩
      rw [q, Option.some_inj] at e1
      rw [q', Option.some_inj] at e2
      rw [inj _ _ e1, inj _ _ e2]
    · intro e
      exact ⟨_, q, by rw [q', e]⟩
  · intro hn
    rw [q, q']
    have : FP.le (f x y) thr = false ∧ FP.gt (f x y) thr = false := by
      rcases hn with e | e
      · rw [e]; cases thr <;> exact ⟨rfl, rfl⟩
      · rw [e]; cases f x y <;> exact ⟨rfl, rfl⟩
    rw [this.1, this.2]
    exact ⟨rfl, rfl⟩

/-! ## Extrema -/

theorem FP.lt_irrefl (a : FP K) : FP.lt a a = false := by
  cases a with
  | num x => exact decide_eq_false (_root_.lt_irrefl x)
  | inf s => cases s <;> rfl
  | nan => rfl

theorem FP.lt_trans {a b c : FP K} (h1 : FP.lt a b = true) (h2 : FP.lt b c = true) : FP.lt a c = true := by
  cases a <;> cases b <;> cases c <;> simp_all [FP.lt]
  exact _root_.lt_trans h1 h2

/-- `min` for a comparison which need not be total. -/
theorem min_loose {lt : V → V → Bool} (hirr : ∀ a, lt a a = false) (htr : ∀ a b c, lt a b = true → lt b c = true → lt a c = true)
    (top : V) {h : Heap V} {g : Gray} (hv : g.Valid h) (hs : g.subimage = false) {f : Nat → Nat → V} (hf : g.Shows h f) :
    ∃ m, ImageStatistics.min lt top g h = .ok m h ∧ (m = top ∨ lt m top = true ∧ ∃ x y, x < g.width ∧ y < g.height ∧ f x y = m) ∧
      lt top m = false ∧ ∀ x y, x < g.width → y < g.height → lt (f x y) m = false := by
  obtain ⟨e1, e2⟩ := hv.owner hs
  have ht : g.totalPixels = g.width * g.height := wrap32_of_lt hv.area_lt
  have key : Spec (ImageStatistics.min lt top g) h (fun m h' => h' = h ∧
      (m = top ∨ lt m top = true ∧ ∃ x y, x < g.width ∧ y < g.height ∧ f x y = m) ∧ lt top m = false ∧
      (∀ x y, x < g.width → y < g.height → lt (f x y) m = false)) := by
    unfold ImageStatistics.min
    rw [ht]
    refine Spec.conseq (Spec.loopS (fun i m h' => h' = h ∧
      (m = top ∨ lt m top = true ∧ ∃ x y, x < g.width ∧ y < g.height ∧ f x y = m) ∧ lt top m = false ∧
      (∀ x y, x < g.width → y < g.height → y * g.width + x < i → lt (f x y) m = false))
      ⟨rfl, Or.inl rfl, hirr _, fun _ _ _ _ h => by omega⟩ ?_) ?_
    · rintro i m h' hi ⟨rfl, hm, htop, hb⟩
      have h0 : 0 < g.width := by
        rcases Nat.eq_zero_or_pos g.width with h | h
        · rw [h, Nat.zero_mul] at hi; omega
        · exact h
      have hx : i % g.width < g.width := Nat.mod_lt _ h0
      have hy : i / g.width < g.height := by
        rw [Nat.div_lt_iff_lt_mul h0, Nat.mul_comm]; exact hi
      have hdm : i / g.width * g.width + i % g.width = i := by
        have := Nat.div_add_mod i g.width; rw [Nat.mul_comm] at this; exact this
      have hrd : M.rd g.buf i h' = .ok (f (i % g.width) (i / g.width)) h' := by
        apply M.rd_run
        rw [← hf _ _ hx hy]
        unfold Heap.px Gray.addr
        rw [e1, e2, Nat.zero_add, hdm]
      have hweak : ∀ a v, lt a m = false → lt v m = true → lt a v = false := by
        intro a v ha hvm
        cases hav : lt a v with
        | false => rfl
        | true => rw [htr _ _ _ hav hvm] at ha; cases ha
      refine Spec.bind_eq hrd (Spec.pure ⟨rfl, ?_, ?_, ?_⟩)
      · split
        · rename_i hc
          refine Or.inr ⟨?_, _, _, hx, hy, rfl⟩
          rcases hm with rfl | ⟨hm, -⟩
          · exact hc
          · exact htr _ _ _ hc hm
        · exact hm
      · split
        · rename_i hc; exact hweak _ _ htop hc
        · exact htop
      · intro x y hx' hy' hlt
        have hcase : y * g.width + x < i ∨ (x = i % g.width ∧ y = i / g.width) := by
          rcases Nat.lt_or_ge (y * g.width + x) i with h | h
          · exact Or.inl h
          · exact Or.inr (addr_inj_aux hx' hx (by omega))
        by_cases hc : lt (f (i % g.width) (i / g.width)) m = true
        · rw [if_pos hc]
          rcases hcase with h | ⟨rfl, rfl⟩
          · exact hweak _ _ (hb x y hx' hy' h) hc
          · exact hirr _
        · rw [if_neg hc]
          rcases hcase with h | ⟨rfl, rfl⟩
          · exact hb x y hx' hy' h
          · simpa using hc
    · rintro m h' ⟨rfl, hm, htop, hb⟩
      refine ⟨rfl, hm, htop, fun x y hx hy => hb x y hx hy ?_⟩
      have := Nat.mul_le_mul_right g.width (Nat.succ_le_of_lt hy)
      rw [Nat.succ_mul] at this
      rw [Nat.mul_comm g.width]; omega
  obtain ⟨m, h', e, rfl, hm, ht, hb⟩ := key
  exact ⟨m, e, hm, ht, hb⟩

theorem FP.eq_of_le {a : FP K} {t : K} (h1 : FP.le a (.num t) = true) (h2 : FP.lt a (.num t) = false) : a = .num t := by
  cases a with
  | num x =>
    have a1 : x ≤ t := of_decide_eq_true h1
    have a2 : ¬ x < t := of_decide_eq_false h2
    rw [le_antisymm a1 (not_lt.1 a2)]
  | inf s => cases s <;> simp_all [FP.le, FP.lt]
  | nan => simp_all [FP.le]

theorem FP.eq_of_ge {a : FP K} {t : K} (h1 : FP.le (.num t) a = true) (h2 : FP.lt (.num t) a = false) : a = .num t := by
  cases a with
  | num x =>
    have a1 : t ≤ x := of_decide_eq_true h1
    have a2 : ¬ t < x := of_decide_eq_false h2
    rw [le_antisymm a1 (not_lt.1 a2)]
  | inf s => cases s <;> simp_all [FP.le, FP.lt]
  | nan => simp_all [FP.le]

/-- `min` of a float image that owns its array ignores pixels which are not-a-number: the result is a value which no pixel is
below, and a pixel of the image if one is at most the largest finite number `top`.  MISSING: images with no such pixel, see
`C124_min_refuted`. -/
theorem C124_min_partial (top : K) {h : Heap (FP K)} {g : Gray} (hv : g.Valid h) (hs : g.subimage = false)
    {f : Nat → Nat → FP K} (hf : g.Shows h f) :
    ∃ m, ImageStatistics.min FP.lt (.num top) g h = .ok m h ∧ (∀ x y, x < g.width → y < g.height → FP.lt (f x y) m = false) ∧
      ((∃ x y, x < g.width ∧ y < g.height ∧ FP.le (f x y) (.num top) = true) →
        m ≠ .nan ∧ ∃ x y, x < g.width ∧ y < g.height ∧ f x y = m) := by
  obtain ⟨m, e, hm, ht, hb⟩ := min_loose FP.lt_irrefl (fun _ _ _ => FP.lt_trans) (.num top) hv hs hf
  refine ⟨m, e, hb, ?_⟩
  rintro ⟨x, y, hx, hy, hle⟩
  rcases hm with rfl | ⟨hlt, hm⟩
  · exact ⟨fun e => (by cases e), x, y, hx, hy, FP.eq_of_le hle (hb x y hx hy)⟩
  · exact ⟨fun e => (by rw [e] at hlt; cases hlt), hm⟩

/-- `max`, which starts from the smallest positive number `bot` (see `C26_max_float_refuted`). -/
theorem C124_max_partial (bot : K) {h : Heap (FP K)} {g : Gray} (hv : g.Valid h) (hs : g.subimage = false)
    {f : Nat → Nat → FP K} (hf : g.Shows h f) :
    ∃ m, ImageStatistics.max FP.lt (.num bot) g h = .ok m h ∧ (∀ x y, x < g.width → y < g.height → FP.lt m (f x y) = false) ∧
      ((∃ x y, x < g.width ∧ y < g.height ∧ FP.le (.num bot) (f x y) = true) →
        m ≠ .nan ∧ ∃ x y, x < g.width ∧ y < g.height ∧ f x y = m) := by
  obtain ⟨m, e, hm, ht, hb⟩ := min_loose (lt := fun a b => FP.lt b a) FP.lt_irrefl (fun _ _ _ h1 h2 => FP.lt_trans h2 h1)
    (FP.num bot) hv hs hf
  refine ⟨m, e, hb, ?_⟩
  rintro ⟨x, y, hx, hy, hle⟩
  rcases hm with rfl | hm
  · exact ⟨fun e => (by cases e), x, y, hx, hy, FP.eq_of_ge hle (hb x y hx hy)⟩
  · exact ⟨fun e => (by rw [e] at hm; cases hm.1), hm.2⟩

/-- The smallest pixel of an image whose pixels are all `+∞` or not-a-number is reported as the largest finite number, which
none of them is. -/
theorem C124_min_refuted (top : K) {h : Heap (FP K)} {g : Gray} (hv : g.Valid h) (hs : g.subimage = false)
    {f : Nat → Nat → FP K} (hf : g.Shows h f)
    (hp : ∀ x y, x < g.width → y < g.height → f x y = .inf false ∨ f x y = .nan) :
    ImageStatistics.min FP.lt (.num top) g h = .ok (.num top) h ∧
      ∀ x y, x < g.width → y < g.height → f x y ≠ .num top := by
  obtain ⟨m, e, hm, ht, hb⟩ := min_loose FP.lt_irrefl (fun _ _ _ => FP.lt_trans) (FP.num top) hv hs hf
  have hne : ∀ x y, x < g.width → y < g.height → f x y ≠ .num top := by
    intro x y hx hy e
    rcases hp x y hx hy with q | q <;> rw [q] at e <;> cases e
  refine ⟨?_, hne⟩
  rcases hm with rfl | ⟨hlt, x, y, hx, hy, e1⟩
  · exact e
  · subst e1
    rcases hp x y hx hy with q | q <;> rw [q] at hlt <;> cases hlt

/-! ## What the running sums spoil -/

/-- For the examples: fractions without rounding, the array elements of a kernel, and a row of values with a row for the
result. -/
def exactQ (x : ℚ) : Option ℚ := some x
def elemFP : GrowArray.Elem (FP ℚ) := ⟨id, 4, .num 0, fun _ => .num 0⟩
def rowFP (l : List (FP ℚ)) : Heap (FP ℚ) := ⟨[some l, some (List.replicate l.length (.num 0))]⟩
def rowIn : Gray := ⟨0, 7, 7, 1, 0, 7, false⟩
def rowOut : Gray := ⟨1, 7, 7, 1, 0, 7, false⟩

/-- One pixel which is not-a-number: the averages of the windows 2 .. 4, 3 .. 5 and 4 .. 6 are not-a-number although all
pixels in them are 1. -/
theorem C124_mean_refuted : ∃ h', ConvolveImageMean.horizontalX exactQ elemFP rowIn rowOut 1
      (rowFP [.num 1, .nan, .num 1, .num 1, .num 1, .num 1, .num 1]) = .ok () h' ∧
    (∀ x, x < 6 → h'.px rowOut x 0 = some .nan) ∧ h'.px rowOut 6 0 = some (.num 1) :=
  ⟨⟨[some [.num 1, .nan, .num 1, .num 1, .num 1, .num 1, .num 1], some [.nan, .nan, .nan, .nan, .nan, .nan, .num 1]]⟩, by decide +kernel,
    by decide +kernel, by decide +kernel⟩

/-- One infinite pixel. -/
theorem C124_mean_infinity_refuted : ∃ h', ConvolveImageMean.horizontalX exactQ elemFP rowIn rowOut 1
      (rowFP [.num 1, .inf false, .num 1, .num 1, .num 1, .num 1, .num 1]) = .ok () h' ∧
    (∀ x, x < 3 → h'.px rowOut x 0 = some (.inf false)) ∧ (∀ x, 3 ≤ x → x < 6 → h'.px rowOut x 0 = some .nan) :=
  ⟨⟨[some [.num 1, .inf false, .num 1, .num 1, .num 1, .num 1, .num 1], some [.inf false, .inf false, .inf false, .nan, .nan, .nan, .num 1]]⟩, by decide +kernel,
    by decide +kernel, fun x h1 h2 => by
    have : x = 3 ∨ x = 4 ∨ x = 5 := by omega
    rcases this with rfl | rfl | rfl <;> decide +kernel⟩

/-- No special value is needed: with `float`, a single bright pixel, `2^25`, spoils the averages of all windows to the right
of it; the average of ones is a third. -/
theorem C124_bright_refuted : ∃ h', ConvolveImageMean.horizontalX float32 elemFP rowIn rowOut 1
      (rowFP [.num (2 ^ 25), .num 1, .num 1, .num 1, .num 1, .num 1, .num 1]) = .ok () h' ∧
    (∀ x, x < 4 → h'.px rowOut (x + 2) 0 = some (.num (11184811 / 33554432))) ∧
    (∃ h'', ConvolveImageMean.horizontalX float32 elemFP rowIn rowOut 1
      (rowFP [.num 1, .num 1, .num 1, .num 1, .num 1, .num 1, .num 1]) = .ok () h'' ∧
      ∀ x, x < 7 → h''.px rowOut x 0 = some (.num 1)) :=
  ⟨⟨[some [.num (2 ^ 25), .num 1, .num 1, .num 1, .num 1, .num 1, .num 1], some [.num 16777216, .num 11184811, .num (11184811 / 33554432),
    .num (11184811 / 33554432), .num (11184811 / 33554432), .num (11184811 / 33554432), .num 1]]⟩, by decide +kernel, by decide +kernel,
    ⟨[some [.num 1, .num 1, .num 1, .num 1, .num 1, .num 1, .num 1], some [.num 1, .num 1, .num 1, .num 1, .num 1, .num 1, .num 1]]⟩, by decide +kernel, by decide +kernel⟩

/-- Nor is an infinite pixel needed to get infinite averages everywhere to the right: two large ones, whose sum is out of the
range of `float`, do. -/
theorem C124_overflow_refuted : ∃ h', ConvolveImageMean.horizontalX float32 elemFP rowIn rowOut 1
      (rowFP [.num 1, .num (2 ^ 128 - 2 ^ 104), .num (2 ^ 128 - 2 ^ 104), .num 1, .num 1, .num 1, .num 1]) = .ok () h' ∧
    (∀ x, x < 5 → h'.px rowOut (x + 1) 0 = some (.inf false)) ∧ h'.px rowOut 6 0 = some (.num 1) :=
  ⟨⟨[some [.num 1, .num (2 ^ 128 - 2 ^ 104), .num (2 ^ 128 - 2 ^ 104), .num 1, .num 1, .num 1, .num 1], some [.num (2 ^ 127 - 2 ^ 103), .inf false, .inf false, .inf false, .inf false,
    .inf false, .num 1]]⟩, by decide +kernel, by decide +kernel, by decide +kernel⟩

/-! ## Examples -/

example : Gray.Valid (rowFP [.num 1, .nan, .num 1, .num 1, .num 1, .num 1, .num 1]) rowIn ∧
    Gray.Valid (rowFP [.num 1, .nan, .num 1, .num 1, .num 1, .num 1, .num 1]) rowOut ∧ elemFP.ms elemFP.zero = elemFP.zero ∧
    rowIn.buf ≠ rowOut.buf ∧ rowOut.CanBe rowIn.width rowIn.height := by
  refine ⟨by decide, by decide, rfl, by decide, Or.inl rfl⟩

/-- A kernel of three ones, with pixels outside the image taken as 0: only the windows with the bad pixel are spoilt. -/
example : ConvolveImage.horizontal (.num 0) (specialArith exactQ) ⟨3, 1, ⟨[.num 1, .num 1, .num 1], 3, .num 0, true⟩⟩ (.value (.num 0))
    rowIn rowOut (rowFP [.num 1, .nan, .num 1, .num 1, .num 1, .inf true, .num 1]) =
    .ok rowOut ⟨[some [.num 1, .nan, .num 1, .num 1, .num 1, .inf true, .num 1],
      some [.nan, .nan, .nan, .num 3, .inf true, .inf true, .inf true]]⟩ := by decide +kernel

/-- A coefficient of zero does not hide an infinity. -/
example : ConvolveImage.horizontal (.num 0) (specialArith exactQ) ⟨3, 1, ⟨[.num 0, .num 1, .num 0], 3, .num 0, true⟩⟩ (.value (.num 0))
    rowIn rowOut (rowFP [.num 1, .num 2, .num 3, .num 4, .num 5, .inf true, .num 7]) =
    .ok rowOut ⟨[some [.num 1, .num 2, .num 3, .num 4, .num 5, .inf true, .num 7],
      some [.num 1, .num 2, .num 3, .num 4, .nan, .inf true, .nan]]⟩ := by decide +kernel

example : ImageStatistics.min FP.lt (.num 1000) rowIn (rowFP [.num 4, .nan, .num 2, .inf false, .num 3, .nan, .num 5]) =
    .ok (.num (2 : ℚ)) (rowFP [.num 4, .nan, .num 2, .inf false, .num 3, .nan, .num 5]) := by decide +kernel

example : ImageStatistics.min FP.lt (.num 1000) rowIn (rowFP [.nan, .nan, .inf false, .inf false, .nan, .nan, .inf false]) =
    .ok (.num (1000 : ℚ)) (rowFP [.nan, .nan, .inf false, .inf false, .nan, .nan, .inf false]) := by decide +kernel

/-- Both directions of the threshold give 0 at the pixel which is not-a-number. -/
example : ∀ down, ThresholdOps.threshold FP.le FP.gt (fun b => .num (if b then (1 : ℚ) else 0)) (.num 0) rowIn (.num 3) down rowOut
    (rowFP [.num 4, .nan, .num 2, .inf false, .num 3, .inf true, .num 5]) =
    .ok rowOut ⟨[some [.num 4, .nan, .num 2, .inf false, .num 3, .inf true, .num 5],
      some (if down then [.num 0, .num 0, .num 1, .num 0, .num 1, .num 1, .num 0]
        else [.num 1, .num 0, .num 0, .num 1, .num 0, .num 0, .num 1])]⟩ := by decide +kernel

example : (∀ x : ℚ, (exactQ x).isSome) ∧ exactQ ((2 * 1 + 1 : Nat) : ℚ) ≠ some 0 := ⟨fun _ => rfl, by decide +kernel⟩

end Boof
