import Verif.Proofs.Statistics
import Verif.Proofs.Paint
import Verif.Proofs.Interleaved
/-
C25-C29: image statistics and band averaging.
-/
namespace Boof
variable {V : Type}

/-! ## C25 sum -/

/-- Unsigned pixel types: `sum` is the sum of the pixels whenever that is below 2^32 (and is reduced modulo 2^32
otherwise).  The result depends on the image's pixels only, and nothing is modified. -/
theorem C25_sum_unsigned {t : IntTy} (ht : t = U8 ∨ t = U16) {h : Heap Int} {g : Gray} (hv : g.Valid h)
    {f : Nat → Nat → Int} (hf : g.Shows h f) :
    ∃ s, ImageStatistics.sum t g h = .ok s h ∧ s = pixelSum g.width g.height f % 4294967296 ∧
      (0 ≤ pixelSum g.width g.height f → pixelSum g.width g.height f < 4294967296 →
        s = pixelSum g.width g.height f) := by
  have hst : t.sumType = U32 := by rcases ht with rfl | rfl <;> rfl
  refine ⟨_, sum_run (by rw [hst]; decide) hv hf (by rw [hst]; intro e; cases e), ?_, ?_⟩
  · rw [hst, IntTy.cast_unsigned rfl]; rfl
  · intro h0 h1
    rw [hst, IntTy.cast_unsigned rfl]
    exact Int.emod_eq_of_lt h0 h1

/-- 16-bit signed images of at most 65535 pixels: the sum never overflows. -/
theorem C25_sum_s16 {h : Heap Int} {g : Gray} (hv : g.Valid h)
    {f : Nat → Nat → Int} (hf : g.Shows h f) (hr : ∀ x y, x < g.width → y < g.height → S16.InRange (f x y))
    (hsmall : g.width * g.height ≤ 65535) :
    ImageStatistics.sum S16 g h = .ok (pixelSum g.width g.height f) h := by
  have hlo : S16.lo = -32768 := rfl
  have hhi : S16.hi = 32767 := rfl
  have hr' : ∀ x y, x < g.width → y < g.height → (-32768 : Int) ≤ f x y ∧ f x y ≤ 32767 := by
    intro x y hx hy; have := hr x y hx hy; rw [IntTy.InRange, hlo, hhi] at this; exact this
  have h1 := pixelSum_le (fun x y hx hy => (hr' x y hx hy).2)
  have h2 := le_pixelSum (fun x y hx hy => (hr' x y hx hy).1)
  have hb : 0 < S16.sumType.bits := by decide
  rw [sum_run (t := S16) hb hv hf]
  · rw [IntTy.cast_of_inRange hb]
    show (-2147483648 : Int) ≤ _ ∧ _ ≤ (2147483647 : Int)
    constructor <;> omega
  · intro _ y x hy hx
    have := prefixSum_le (lo := -32768) (hi := 32767) (by omega) (by omega) hr' hy hx
    show (-2147483648 : Int) ≤ _ ∧ _ ≤ (2147483647 : Int)
    constructor <;> omega

/-- Full statement C25: the sum is exact whenever it is representable in the sum type.  For signed sum types this is
proved when the running sums are representable too; otherwise it is false (`C25_sum_refuted`). -/
theorem C25_sum_partial {t : IntTy} (ht : t = S16 ∨ t = S32 ∨ t = S64) {h : Heap Int} {g : Gray} (hv : g.Valid h)
    {f : Nat → Nat → Int} (hf : g.Shows h f) (h0 : 0 < g.width) (h1 : 0 < g.height)
    (hpre : ∀ y x, y < g.height → x ≤ g.width → t.sumType.InRange (prefixSum g.width f y x)) :
    ImageStatistics.sum t g h = .ok (pixelSum g.width g.height f) h := by
  have hb : 0 < t.sumType.bits := sumType_bits (by rcases ht with h | h | h <;> simp [h])
  rw [sum_run hb hv hf (fun _ => hpre)]
  have := hpre (g.height - 1) g.width (by omega) (Nat.le_refl _)
  have e : prefixSum g.width f (g.height - 1) g.width = pixelSum g.width g.height f := by
    unfold prefixSum pixelSum
    have : g.height = (g.height - 1) + 1 := by omega
    rw [show sumN g.height = sumN ((g.height - 1) + 1) from by rw [← this]]
    simp only [sumN]
  rw [e] at this
  rw [IntTy.cast_of_inRange hb this]

/-- A 3x1 image of 32-bit pixels whose sum is representable, but whose running sum overflows. -/
theorem C25_sum_refuted :
    ∃ (h : Heap Int) (g : Gray) (f : Nat → Nat → Int), g.Valid h ∧ g.Shows h f ∧
      (∀ x y, x < g.width → y < g.height → S32.InRange (f x y)) ∧
      S32.sumType.InRange (pixelSum g.width g.height f) ∧ ImageStatistics.sum S32 g h = .ub := by
  refine ⟨⟨[some [2147483647, 1, -5]]⟩, ⟨0, 3, 3, 1, 0, 3, false⟩,
    fun x _ => ([2147483647, 1, -5] : List Int).getD x 0, by decide, ?_, ?_, by decide, rfl⟩
  · intro x y hx hy
    have hx : x < 3 := hx
    have hy : y < 1 := hy
    have ey : y = 0 := by omega
    subst ey
    match x, hx with
    | 0, _ => rfl
    | 1, _ => rfl
    | 2, _ => rfl
  · intro x y hx hy
    have hx : x < 3 := hx
    match x, hx with
    | 0, _ => show S32.InRange 2147483647; decide
    | 1, _ => show S32.InRange 1; decide
    | 2, _ => show S32.InRange (-5); decide

/-- A 2x2 window of a 3x2 image. -/
example : (Gray.wrap 0 6 2 2 1 3).Valid (⟨[some [1,2,3,4,5,6]]⟩ : Heap Int) ∧
    (Gray.wrap 0 6 2 2 1 3).Shows (⟨[some [1,2,3,4,5,6]]⟩ : Heap Int) (fun x y => 2 + x + 3 * y) ∧
    ImageStatistics.sum U8 (Gray.wrap 0 6 2 2 1 3) (⟨[some [1,2,3,4,5,6]]⟩ : Heap Int) = .ok 16 ⟨[some [1,2,3,4,5,6]]⟩ := by
  refine ⟨by decide, ?_, rfl⟩
  intro x y hx hy
  have hx : x < 2 := hx
  have hy : y < 2 := hy
  match x, y, hx, hy with
  | 0, 0, _, _ => rfl
  | 0, 1, _, _ => rfl
  | 1, 0, _, _ => rfl
  | 1, 1, _, _ => rfl

/-! ## C26 min and max -/

/-- `lt` is a strict total order (the `<` of the pixel type, on values that are not NaN). -/
structure StrictTotal (lt : V → V → Bool) : Prop where
  irrefl : ∀ a, lt a a = false
  trans : ∀ a b c, lt a b = true → lt b c = true → lt a c = true
  total : ∀ a b, lt a b = true ∨ a = b ∨ lt b a = true

theorem StrictTotal.int : StrictTotal (fun a b : Int => decide (a < b)) :=
  ⟨fun a => by simp, fun a b c h1 h2 => by simp only [decide_eq_true_eq] at *; omega,
   fun a b => by simp only [decide_eq_true_eq]; omega⟩

theorem StrictTotal.flip {lt : V → V → Bool} (hl : StrictTotal lt) : StrictTotal (fun a b => lt b a) :=
  ⟨hl.irrefl, fun a b c h1 h2 => hl.trans c b a h2 h1, fun a b => by
    rcases hl.total b a with h | h | h
    · exact Or.inl h
    · exact Or.inr (Or.inl h.symm)
    · exact Or.inr (Or.inr h)⟩

theorem min_owner {lt : V → V → Bool} (hl : StrictTotal lt) {top : V} {h : Heap V} {g : Gray} (hv : g.Valid h)
    (hs : g.subimage = false) (h0 : 0 < g.width) (h1 : 0 < g.height) {f : Nat → Nat → V} (hf : g.Shows h f)
    (htop : ∀ x y, x < g.width → y < g.height → lt top (f x y) = false) :
    ∃ m, ImageStatistics.min lt top g h = .ok m h ∧
      (∃ x y, x < g.width ∧ y < g.height ∧ m = f x y) ∧
      (∀ x y, x < g.width → y < g.height → lt (f x y) m = false) := by
  obtain ⟨e1, e2⟩ := hv.owner hs
  have ht : g.totalPixels = g.width * g.height := wrap32_of_lt hv.area_lt
  have hpos : 0 < g.width * g.height := Nat.mul_pos h0 h1
  -- invariant after `i` cells
  have key : Spec (ImageStatistics.min lt top g) h (fun m h' => h' = h ∧
      (m = top ∨ ∃ x y, x < g.width ∧ y < g.height ∧ m = f x y) ∧
      (∀ x y, x < g.width → y < g.height → lt (f x y) m = false)) := by
    unfold ImageStatistics.min
    rw [ht]
    refine Spec.conseq (Spec.loopS (fun i m h' => h' = h ∧
      (m = top ∨ ∃ x y, x < g.width ∧ y < g.height ∧ m = f x y) ∧
      (∀ x y, x < g.width → y < g.height → y * g.width + x < i → lt (f x y) m = false))
      ⟨rfl, Or.inl rfl, fun _ _ _ _ h => by omega⟩ ?_) ?_
    · rintro i m h' hi ⟨rfl, hm, hb⟩
      have hx : i % g.width < g.width := Nat.mod_lt _ h0
      have hy : i / g.width < g.height := by
        rw [Nat.div_lt_iff_lt_mul h0, Nat.mul_comm]; exact hi
      have hdm : i / g.width * g.width + i % g.width = i := by
        have := Nat.div_add_mod i g.width; rw [Nat.mul_comm] at this; exact this
      have hrd : M.rd g.buf i h' = .ok (f (i % g.width) (i / g.width)) h' := by
        apply M.rd_run
        rw [← hf _ _ hx hy]
        unfold Heap.px Gray.addr
        rw [e1, e2, Nat.zero_add, hdm]
      refine Spec.bind_eq hrd (Spec.pure ⟨rfl, ?_, ?_⟩)
      · split
        · exact Or.inr ⟨_, _, hx, hy, rfl⟩
        · exact hm
      · intro x y hx' hy' hlt
        have hcase : y * g.width + x < i ∨ (x = i % g.width ∧ y = i / g.width) := by
          rcases Nat.lt_or_ge (y * g.width + x) i with h | h
          · exact Or.inl h
          · exact Or.inr (addr_inj_aux hx' hx (by omega))
        by_cases hc : lt (f (i % g.width) (i / g.width)) m = true
        · rw [if_pos hc]
          rcases hcase with h | ⟨rfl, rfl⟩
          · cases hcc : lt (f x y) (f (i % g.width) (i / g.width)) with
            | false => rfl
            | true => have := hl.trans _ _ _ hcc hc; rw [hb x y hx' hy' h] at this; cases this
          · exact hl.irrefl _
        · rw [if_neg hc]
          rcases hcase with h | ⟨rfl, rfl⟩
          · exact hb x y hx' hy' h
          · simpa using hc
    · rintro m h' ⟨rfl, hm, hb⟩
      refine ⟨rfl, hm, fun x y hx hy => hb x y hx hy ?_⟩
      have := Nat.mul_le_mul_right g.width (Nat.succ_le_of_lt hy)
      rw [Nat.succ_mul] at this
      rw [Nat.mul_comm g.width]; omega
  obtain ⟨m, h', e, rfl, hm, hb⟩ := key
  refine ⟨m, e, ?_, hb⟩
  rcases hm with rfl | hm
  · refine ⟨0, 0, h0, h1, ?_⟩
    rcases hl.total m (f 0 0) with h | h | h
    · rw [htop 0 0 h0 h1] at h; cases h
    · exact h
    · rw [hb 0 0 h0 h1] at h; cases h
  · exact hm

/-- Full statement C26 (min): for every non-empty image the result is a pixel value and no pixel is smaller.
Proved for images that own their array; false for windows (`C26_sub_refuted`).  `top` is the type's largest value. -/
theorem C26_min_partial {lt : V → V → Bool} (hl : StrictTotal lt) {top : V} {h : Heap V} {g : Gray} (hv : g.Valid h)
    (hs : g.subimage = false) (h0 : 0 < g.width) (h1 : 0 < g.height) {f : Nat → Nat → V} (hf : g.Shows h f)
    (htop : ∀ x y, x < g.width → y < g.height → lt top (f x y) = false) :
    ∃ m, ImageStatistics.min lt top g h = .ok m h ∧
      (∃ x y, x < g.width ∧ y < g.height ∧ m = f x y) ∧
      (∀ x y, x < g.width → y < g.height → lt (f x y) m = false) := min_owner hl hv hs h0 h1 hf htop

/-- Full statement C26 (max).  Proved for images that own their array and whose pixels are not below
`numeric_limits<T>::min()`, which holds for every integer type. -/
theorem C26_max_partial {lt : V → V → Bool} (hl : StrictTotal lt) {bot : V} {h : Heap V} {g : Gray} (hv : g.Valid h)
    (hs : g.subimage = false) (h0 : 0 < g.width) (h1 : 0 < g.height) {f : Nat → Nat → V} (hf : g.Shows h f)
    (hbot : ∀ x y, x < g.width → y < g.height → lt (f x y) bot = false) :
    ∃ m, ImageStatistics.max lt bot g h = .ok m h ∧
      (∃ x y, x < g.width ∧ y < g.height ∧ m = f x y) ∧
      (∀ x y, x < g.width → y < g.height → lt m (f x y) = false) :=
  min_owner (lt := fun a b => lt b a) hl.flip hv hs h0 h1 hf hbot

/-- Integer images: both hold for every owned non-empty image. -/
theorem C26_int {t : IntTy} {h : Heap Int} {g : Gray} (hv : g.Valid h)
    (hs : g.subimage = false) (h0 : 0 < g.width) (h1 : 0 < g.height) {f : Nat → Nat → Int} (hf : g.Shows h f)
    (hr : ∀ x y, x < g.width → y < g.height → t.InRange (f x y)) :
    ∃ lo hi, ImageStatistics.min (fun a b => decide (a < b)) t.hi g h = .ok lo h ∧
      ImageStatistics.max (fun a b => decide (a < b)) t.lo g h = .ok hi h ∧
      (∃ x y, x < g.width ∧ y < g.height ∧ lo = f x y) ∧ (∃ x y, x < g.width ∧ y < g.height ∧ hi = f x y) ∧
      (∀ x y, x < g.width → y < g.height → lo ≤ f x y ∧ f x y ≤ hi) := by
  obtain ⟨lo, e1, a1, b1⟩ := C26_min_partial StrictTotal.int hv hs h0 h1 hf (top := t.hi)
    (fun x y hx hy => by have := (hr x y hx hy).2; simpa using this)
  obtain ⟨hi, e2, a2, b2⟩ := C26_max_partial StrictTotal.int hv hs h0 h1 hf (bot := t.lo)
    (fun x y hx hy => by have := (hr x y hx hy).1; simpa using this)
  refine ⟨lo, hi, e1, e2, a1, a2, fun x y hx hy => ?_⟩
  have h1 := b1 x y hx hy
  have h2 := b2 x y hx hy
  simp only [decide_eq_false_iff_not, Int.not_lt] at h1 h2
  exact ⟨h1, h2⟩

/-- For windows both are wrong: they look at the beginning of the parent's array. -/
theorem C26_sub_refuted :
    ∃ (h : Heap Int) (g : Gray), g.Valid h ∧ h.px g 0 0 = some 5 ∧ g.width = 1 ∧ g.height = 1 ∧
      ImageStatistics.min (fun a b => decide (a < b)) U8.hi g h = .ok 2 h ∧
      ImageStatistics.max (fun a b => decide (a < b)) U8.lo g h = .ok 2 h :=
  ⟨⟨[some [2,3,4,5]]⟩, Gray.wrap 0 4 1 1 3 2, by decide, rfl, rfl, rfl, rfl, rfl⟩

/-- For floating types `max` starts from the smallest positive number, so an image whose pixels are all below it
(for instance all negative) yields a value that is not a pixel. -/
theorem C26_max_float_refuted {lt : V → V → Bool} (hl : StrictTotal lt) {bot : V} {h : Heap V} {g : Gray}
    (hv : g.Valid h) (hs : g.subimage = false) (h0 : 0 < g.width) (h1 : 0 < g.height) {f : Nat → Nat → V}
    (hf : g.Shows h f) (hneg : ∀ x y, x < g.width → y < g.height → lt (f x y) bot = true) :
    ImageStatistics.max lt bot g h = .ok bot h ∧ ∀ x y, x < g.width → y < g.height → bot ≠ f x y := by
  constructor
  · obtain ⟨e1, e2⟩ := hv.owner hs
    have ht : g.totalPixels = g.width * g.height := wrap32_of_lt hv.area_lt
    suffices Spec (ImageStatistics.max lt bot g) h (fun m h' => m = bot ∧ h' = h) by
      obtain ⟨_, _, e, rfl, rfl⟩ := this; exact e
    unfold ImageStatistics.max
    rw [ht]
    refine Spec.conseq (Spec.loopS (fun i m h' => m = bot ∧ h' = h) ⟨rfl, rfl⟩ ?_) (fun _ _ p => p)
    rintro i m h' hi ⟨rfl, rfl⟩
    have hx : i % g.width < g.width := Nat.mod_lt _ h0
    have hy : i / g.width < g.height := by
      rw [Nat.div_lt_iff_lt_mul h0, Nat.mul_comm]; exact hi
    have hdm : i / g.width * g.width + i % g.width = i := by
      have := Nat.div_add_mod i g.width; rw [Nat.mul_comm] at this; exact this
    have hrd : M.rd g.buf i h' = .ok (f (i % g.width) (i / g.width)) h' := by
      apply M.rd_run
      rw [← hf _ _ hx hy]
      unfold Heap.px Gray.addr
      rw [e1, e2, Nat.zero_add, hdm]
    refine Spec.bind_eq hrd (Spec.pure ⟨?_, rfl⟩)
    split
    · rename_i hc
      have := hl.trans _ _ _ hc (hneg _ _ hx hy)
      rw [hl.irrefl] at this; cases this
    · rfl
  · intro x y hx hy e
    have := hneg x y hx hy
    rw [← e, hl.irrefl] at this; cases this

/-- A concrete image for C26. -/
example : (⟨0, 4, 2, 2, 0, 2, false⟩ : Gray).Valid (⟨[some [2,3,4,5]]⟩ : Heap Int) ∧
    ImageStatistics.min (fun a b => decide (a < b)) U8.hi ⟨0, 4, 2, 2, 0, 2, false⟩ (⟨[some [4,3,2,5]]⟩ : Heap Int)
      = .ok 2 ⟨[some [4,3,2,5]]⟩ := ⟨by decide, rfl⟩

/-! ## C27 mean -/

theorem mean_run {t : IntTy} {h : Heap Int} {g : Gray} (hv : g.Valid h) {f : Nat → Nat → Int}
    (hr : ∀ x y, x < g.width → y < g.height → t.InRange (f x y)) (h0 : 0 < g.width) (h1 : 0 < g.height)
    (hb : 0 < t.bits)
    (hs : ImageStatistics.sum t g h = .ok (pixelSum g.width g.height f) h)
    (hd : t.sumType = S64 ∨ (0 ≤ pixelSum g.width g.height f ∧ pixelSum g.width g.height f < P32)) :
    ImageStatistics.mean t g h = .ok ((pixelSum g.width g.height f).tdiv (g.width * g.height : Nat)) h ∧
    ∀ lo hi, (∀ x y, x < g.width → y < g.height → lo ≤ f x y ∧ f x y ≤ hi) →
      lo ≤ (pixelSum g.width g.height f).tdiv (g.width * g.height : Nat) ∧
      (pixelSum g.width g.height f).tdiv (g.width * g.height : Nat) ≤ hi := by
  have hpos : 0 < g.width * g.height := Nat.mul_pos h0 h1
  have bnd : ∀ lo hi, (∀ x y, x < g.width → y < g.height → lo ≤ f x y ∧ f x y ≤ hi) →
      lo ≤ (pixelSum g.width g.height f).tdiv (g.width * g.height : Nat) ∧
      (pixelSum g.width g.height f).tdiv (g.width * g.height : Nat) ≤ hi := by
    intro lo hi hb
    exact tdiv_between (by omega) (le_pixelSum (fun x y hx hy => (hb x y hx hy).1))
      (pixelSum_le (fun x y hx hy => (hb x y hx hy).2))
  refine ⟨?_, bnd⟩
  unfold ImageStatistics.mean
  rw [M.bind_ok hs, wrap32_of_lt hv.area_lt, M.bind_ok (divU32_run hpos hd h)]
  show Res.ok _ h = _
  rw [IntTy.cast_of_inRange hb (bnd t.lo t.hi hr)]

/-- 8- and 16-bit unsigned images whose sum is below 2^32: the mean is the average rounded down, and lies between any
bounds of the pixels. -/
theorem C27_mean_unsigned {t : IntTy} (ht : t = U8 ∨ t = U16) {h : Heap Int} {g : Gray} (hv : g.Valid h)
    {f : Nat → Nat → Int} (hf : g.Shows h f) (hr : ∀ x y, x < g.width → y < g.height → t.InRange (f x y))
    (h0 : 0 < g.width) (h1 : 0 < g.height) (hsum : pixelSum g.width g.height f < 4294967296) :
    ImageStatistics.mean t g h = .ok ((pixelSum g.width g.height f).tdiv (g.width * g.height : Nat)) h ∧
    ∀ lo hi, (∀ x y, x < g.width → y < g.height → lo ≤ f x y ∧ f x y ≤ hi) →
      lo ≤ (pixelSum g.width g.height f).tdiv (g.width * g.height : Nat) ∧
      (pixelSum g.width g.height f).tdiv (g.width * g.height : Nat) ≤ hi := by
  have hlo : t.lo = 0 := by rcases ht with rfl | rfl <;> rfl
  have hnn : 0 ≤ pixelSum g.width g.height f := by
    have := le_pixelSum (w := g.width) (h := g.height) (f := f) (c := 0)
      (fun x y hx hy => by have := (hr x y hx hy).1; rwa [hlo] at this)
    simpa using this
  obtain ⟨s, e, _, es⟩ := C25_sum_unsigned ht hv hf
  rw [es hnn hsum] at e
  exact mean_run hv hr h0 h1 (by rcases ht with rfl | rfl <;> decide) e (Or.inr ⟨hnn, hsum⟩)

/-- Full statement C27: for every non-empty image the mean is the average rounded toward zero.  For signed 16- and
32-bit types it is proved when the sum is not negative; otherwise it is false (`C27_mean_refuted`). -/
theorem C27_mean_partial {t : IntTy} (ht : t = S16 ∨ t = S32) {h : Heap Int} {g : Gray} (hv : g.Valid h)
    {f : Nat → Nat → Int} (hf : g.Shows h f) (hr : ∀ x y, x < g.width → y < g.height → t.InRange (f x y))
    (h0 : 0 < g.width) (h1 : 0 < g.height)
    (hpre : ∀ y x, y < g.height → x ≤ g.width → t.sumType.InRange (prefixSum g.width f y x))
    (hnn : 0 ≤ pixelSum g.width g.height f) (hsum : pixelSum g.width g.height f < 4294967296) :
    ImageStatistics.mean t g h = .ok ((pixelSum g.width g.height f).tdiv (g.width * g.height : Nat)) h ∧
    ∀ lo hi, (∀ x y, x < g.width → y < g.height → lo ≤ f x y ∧ f x y ≤ hi) →
      lo ≤ (pixelSum g.width g.height f).tdiv (g.width * g.height : Nat) ∧
      (pixelSum g.width g.height f).tdiv (g.width * g.height : Nat) ≤ hi :=
  mean_run hv hr h0 h1 (by rcases ht with rfl | rfl <;> decide)
    (C25_sum_partial (by rcases ht with h | h <;> simp [h]) hv hf h0 h1 hpre) (Or.inr ⟨hnn, hsum⟩)

/-- 64-bit images: exact, also for negative sums. -/
theorem C27_mean_s64 {h : Heap Int} {g : Gray} (hv : g.Valid h)
    {f : Nat → Nat → Int} (hf : g.Shows h f) (hr : ∀ x y, x < g.width → y < g.height → S64.InRange (f x y))
    (h0 : 0 < g.width) (h1 : 0 < g.height)
    (hpre : ∀ y x, y < g.height → x ≤ g.width → S64.InRange (prefixSum g.width f y x)) :
    ImageStatistics.mean S64 g h = .ok ((pixelSum g.width g.height f).tdiv (g.width * g.height : Nat)) h ∧
    ∀ lo hi, (∀ x y, x < g.width → y < g.height → lo ≤ f x y ∧ f x y ≤ hi) →
      lo ≤ (pixelSum g.width g.height f).tdiv (g.width * g.height : Nat) ∧
      (pixelSum g.width g.height f).tdiv (g.width * g.height : Nat) ≤ hi :=
  mean_run hv hr h0 h1 (by decide) (C25_sum_partial (Or.inr (Or.inr rfl)) hv hf h0 h1 hpre) (Or.inl rfl)

/-- Signed 16- and 32-bit images with a negative sum: the sum is taken modulo 2^32 before it is divided. -/
theorem C27_mean_negative {t : IntTy} (ht : t = S16 ∨ t = S32) {h : Heap Int} {g : Gray} (hv : g.Valid h)
    {f : Nat → Nat → Int} (hf : g.Shows h f) (h0 : 0 < g.width) (h1 : 0 < g.height)
    (hpre : ∀ y x, y < g.height → x ≤ g.width → t.sumType.InRange (prefixSum g.width f y x))
    (hneg : pixelSum g.width g.height f < 0) :
    ImageStatistics.mean t g h =
      .ok (t.cast ((4294967296 + pixelSum g.width g.height f) / (g.width * g.height : Nat))) h := by
  have hpos : 0 < g.width * g.height := Nat.mul_pos h0 h1
  have hs := C25_sum_partial (by rcases ht with h | h <;> simp [h]) hv hf h0 h1 hpre
  have hin : -2147483648 ≤ pixelSum g.width g.height f := by
    have hp := hpre (g.height - 1) g.width (by omega) (Nat.le_refl _)
    have e : prefixSum g.width f (g.height - 1) g.width = pixelSum g.width g.height f := by
      unfold prefixSum pixelSum
      obtain ⟨n, e⟩ : ∃ n, g.height = n + 1 := ⟨g.height - 1, by omega⟩
      rw [e, Nat.add_sub_cancel]; rfl
    rw [e] at hp
    rcases ht with rfl | rfl <;> exact hp.1
  unfold ImageStatistics.mean
  rw [M.bind_ok hs, wrap32_of_lt hv.area_lt]
  have hst : t.sumType = S32 := by rcases ht with rfl | rfl <;> rfl
  have ed : ImageStatistics.divU32 t.sumType (pixelSum g.width g.height f) (g.width * g.height) h =
      .ok ((4294967296 + pixelSum g.width g.height f) / (g.width * g.height : Nat)) h := by
    unfold ImageStatistics.divU32
    rw [if_neg (by omega), if_neg (by rw [hst]; decide)]
    have e2 : ((toU32 (pixelSum g.width g.height f) : Nat) : Int) = 4294967296 + pixelSum g.width g.height f := by
      unfold toU32 P32; omega
    show Res.ok _ h = _
    rw [Int.natCast_ediv, e2]
  rw [M.bind_ok ed]; rfl

/-- Hence the mean of every 32-bit image of at least two pixels with a negative sum is wrong: it is positive. -/
theorem C27_mean_wrong {h : Heap Int} {g : Gray} (hv : g.Valid h)
    {f : Nat → Nat → Int} (hf : g.Shows h f) (h0 : 0 < g.width) (h1 : 0 < g.height)
    (hn : 2 ≤ g.width * g.height) (hn2 : g.width * g.height ≤ 2147483648)
    (hpre : ∀ y x, y < g.height → x ≤ g.width → S32.InRange (prefixSum g.width f y x))
    (hneg : pixelSum g.width g.height f < 0) :
    ∃ m, ImageStatistics.mean S32 g h = .ok m h ∧ 0 < m ∧ m ≠ (pixelSum g.width g.height f).tdiv (g.width * g.height : Nat) := by
  refine ⟨_, C27_mean_negative (Or.inr rfl) hv hf h0 h1 hpre hneg, ?_⟩
  have hin : -2147483648 ≤ pixelSum g.width g.height f := by
    have hp := hpre (g.height - 1) g.width (by omega) (Nat.le_refl _)
    have e : prefixSum g.width f (g.height - 1) g.width = pixelSum g.width g.height f := by
      unfold prefixSum pixelSum
      obtain ⟨n, e⟩ : ∃ n, g.height = n + 1 := ⟨g.height - 1, by omega⟩
      rw [e, Nat.add_sub_cancel]; rfl
    rw [e] at hp
    exact hp.1
  have hlo : 1 ≤ (4294967296 + pixelSum g.width g.height f) / (g.width * g.height : Nat) := by
    rw [Int.le_ediv_iff_mul_le (by omega)]; omega
  have hhi : (4294967296 + pixelSum g.width g.height f) / (g.width * g.height : Nat) < 2147483648 := by
    rw [Int.ediv_lt_iff_lt_mul (by omega)]; omega
  rw [IntTy.cast_of_inRange (by decide) ⟨by show (-2147483648 : Int) ≤ _; omega, by show _ ≤ (2147483647 : Int); omega⟩]
  refine ⟨by omega, ?_⟩
  have : (pixelSum g.width g.height f).tdiv (g.width * g.height : Nat) ≤ 0 := by
    have h := Int.tdiv_nonneg (a := -pixelSum g.width g.height f) (b := (g.width * g.height : Nat)) (by omega) (by omega)
    rw [Int.neg_tdiv] at h; omega
  omega

/-- Four pixels, all -3: the mean is 1073741821. -/
example : ImageStatistics.mean S32 ⟨0, 4, 2, 2, 0, 2, false⟩ (⟨[some [-3,-3,-3,-3]]⟩ : Heap Int) =
    .ok 1073741821 ⟨[some [-3,-3,-3,-3]]⟩ := rfl

/-- Three 16-bit pixels, all -1: the mean is computed as 21844. -/
theorem C27_mean_refuted :
    ∃ (h : Heap Int) (g : Gray), g.Valid h ∧ g.Shows h (fun _ _ => -1) ∧
      ImageStatistics.mean S16 g h = .ok 21844 h := by
  refine ⟨⟨[some [-1,-1,-1]]⟩, ⟨0, 3, 3, 1, 0, 3, false⟩, by decide, ?_, rfl⟩
  intro x y hx hy
  have hx : x < 3 := hx
  have hy : y < 1 := hy
  have ey : y = 0 := by omega
  subst ey
  match x, hx with
  | 0, _ => rfl
  | 1, _ => rfl
  | 2, _ => rfl

/-- The mean of an empty image divides by zero. -/
theorem C27_empty (h : Heap Int) (g : Gray) (h0 : g.height = 0) (t : IntTy) :
    ImageStatistics.mean t g h = .ub := by
  unfold ImageStatistics.mean ImageStatistics.sum
  rw [h0]
  rfl

example : ImageStatistics.mean U8 ⟨0, 3, 3, 1, 0, 3, false⟩ (⟨[some [3,4,4]]⟩ : Heap Int) = .ok 3 ⟨[some [3,4,4]]⟩ ∧
    ImageStatistics.mean S64 ⟨0, 3, 3, 1, 0, 3, false⟩ (⟨[some [-3,-4,-4]]⟩ : Heap Int) = .ok (-3) ⟨[some [-3,-4,-4]]⟩ :=
  ⟨rfl, rfl⟩

/-! ## C28 histogram -/

/-- Number of pixels with value `v` that precede `(x,y)` in row-major order. -/
theorem count_step (w : Nat) (f : Nat → Nat → Int) (v : Int) (y x : Nat) :
    prefixSum w (fun x y => if f x y = v then 1 else 0) y (x+1) =
      prefixSum w (fun x y => if f x y = v then 1 else 0) y x + (if f x y = v then 1 else 0) := by
  simp only [prefixSum, sumN]; omega

theorem memset_zero : memsetInt U32 0 = 0 := by decide

/-- Provided all pixels lie in `[m, m+size)`, entry `k` becomes the number of pixels equal to `m+k`, whatever the array
contained before; the array keeps its size; the image is not modified. -/
theorem C28_histogram {t : IntTy} (ht : t = U8 ∨ t = U16 ∨ t = S16 ∨ t = S32 ∨ t = S64) {h : Heap Int} {g : Gray}
    (hv : g.Valid h) {f : Nat → Nat → Int} (hf : g.Shows h f) {m : Int} {a : GrowArray Int}
    (hsz : a.size ≤ a.data.length)
    (hr : ∀ x y, x < g.width → y < g.height → m ≤ f x y ∧ f x y < m + a.size ∧ f x y - m < 2147483648) :
    ∃ a', ImageStatistics.histogram t g m a h = .ok a' h ∧ a'.size = a.size ∧
      (∀ k : Nat, k < a.size → a'.data[k]? = some (pixelCount g.width g.height f (m + k))) ∧
      -- hence the entries add up to the number of pixels
      sumN a.size (fun k => (a'.data[k]?).getD 0) = (g.width * g.height : Nat) := by
  suffices hmain : Spec (ImageStatistics.histogram t g m a) h (fun a' h' => h' = h ∧ a'.size = a.size ∧
      (∀ k : Nat, k < a.size → a'.data[k]? = some (pixelCount g.width g.height f (m + k)))) by
    obtain ⟨a', _, e, rfl, es, ec⟩ := hmain
    refine ⟨a', e, es, ec, ?_⟩
    rw [sumN_congr (g := fun k => pixelCount g.width g.height f (m + k)) (fun k hk => by rw [ec k hk]; rfl)]
    exact sumN_pixelCount (fun x y hx hy => ⟨(hr x y hx hy).1, (hr x y hx hy).2.1⟩)
  unfold ImageStatistics.histogram GrowArray.fill
  rw [if_pos hsz]
  refine Spec.bind_eq (M.pure_run _ h) ?_
  have harea := hv.area_lt
  refine Spec.conseq (Spec.loopS (fun y (a' : GrowArray Int) h' => h' = h ∧ a'.size = a.size ∧ (∀ k : Nat, k < a.size →
    a'.data[k]? = some (prefixSum g.width (fun x y => if f x y = m + k then 1 else 0) y 0))) ?_ ?_) ?_
  · refine ⟨rfl, rfl, fun k hk => ?_⟩
    simp only [intElem, memset_zero]
    rw [List.getElem?_append_left (by simpa using hk)]
    simp [prefixSum, sumN, hk]
  · rintro y a1 h' hy ⟨rfl, hs1, hc1⟩
    simp only [hv.row_len hy]
    refine Spec.conseq (Spec.loopS (fun x (a' : GrowArray Int) h1 => h1 = h' ∧ a'.size = a.size ∧ (∀ k : Nat, k < a.size →
      a'.data[k]? = some (prefixSum g.width (fun x y => if f x y = m + k then 1 else 0) y x))) ⟨rfl, hs1, hc1⟩ ?_) ?_
    · rintro x a2 h1 hx ⟨rfl, hs2, hc2⟩
      obtain ⟨b1, b2, b3⟩ := hr x y hx hy
      refine Spec.bind_eq (hv.rd hf hx hy) ?_
      have hpr : (t.promote).InRange (f x y - m) ∧ 0 < (t.promote).bits := by
        rcases ht with rfl | rfl | rfl | rfl | rfl
        · show ((-2147483648 : Int) ≤ _ ∧ _ ≤ (2147483647 : Int)) ∧ 0 < 32; omega
        · show ((-2147483648 : Int) ≤ _ ∧ _ ≤ (2147483647 : Int)) ∧ 0 < 32; omega
        · show ((-2147483648 : Int) ≤ _ ∧ _ ≤ (2147483647 : Int)) ∧ 0 < 32; omega
        · show ((-2147483648 : Int) ≤ _ ∧ _ ≤ (2147483647 : Int)) ∧ 0 < 32; omega
        · show ((-9223372036854775808 : Int) ≤ _ ∧ _ ≤ (9223372036854775807 : Int)) ∧ 0 < 64; omega
      refine Spec.bind_eq (IntTy.arith_run hpr.2 hpr.1 _) ?_
      have hk : toU32 (f x y - m) = (f x y - m).toNat := toU32_of_nonneg (by omega) (by unfold P32; omega)
      have hklt : (f x y - m).toNat < a.size := by omega
      rw [hk, hc2 _ hklt]
      refine Spec.pure ⟨rfl, hs2, ?_⟩
      intro k hk'
      simp only [List.getElem?_set]
      rw [count_step]
      by_cases e : (f x y - m).toNat = k
      · have he : f x y = m + k := by omega
        have hlen : k < a2.data.length := by
          rcases Nat.lt_or_ge k a2.data.length with h | h
          · exact h
          · have := hc2 k hk'; rw [List.getElem?_eq_none h] at this; cases this
        have e2 : m + ((f x y - m).toNat : Int) = m + (k : Int) := by omega
        rw [if_pos e, if_pos (by omega), if_pos he]
        simp only [e2]
        congr 1
        apply IntTy.cast_of_inRange (by decide)
        have hp := prefixSum_le (w := g.width) (ht := g.height) (f := fun x y => if f x y = m + k then 1 else 0)
          (lo := 0) (hi := 1) (by omega) (by omega) (fun x y _ _ => by constructor <;> split <;> omega) hy
          (x := x+1) (by omega)
        rw [count_step, if_pos he] at hp
        show (0:Int) ≤ _ ∧ _ ≤ (4294967295 : Int)
        have hP : (P32 : Int) = 4294967296 := rfl
        omega
      · rw [if_neg e, hc2 k hk', if_neg (by omega)]; simp
    · rintro a2 h2 ⟨rfl, hs2, hc2⟩
      refine ⟨rfl, hs2, fun k hk => ?_⟩
      rw [hc2 k hk]
      simp [prefixSum, sumN]
  · rintro a2 h2 ⟨rfl, hs2, hc2⟩
    refine ⟨rfl, hs2, fun k hk => ?_⟩
    rw [hc2 k hk]
    simp [prefixSum, sumN, pixelCount, pixelSum]

/-- A pixel outside the range of the array is undefined behaviour (`operator[]` is unchecked). -/
theorem C28_out_of_range :
    ImageStatistics.histogram U8 ⟨0, 1, 1, 1, 0, 1, false⟩ 0 ⟨[0,0], 2, 0, true⟩ (⟨[some [7]]⟩ : Heap Int) = .ub := by rfl

example : ImageStatistics.histogram U8 ⟨0, 3, 3, 1, 0, 3, false⟩ 5 ⟨[9,9], 2, 0, true⟩ (⟨[some [5,6,6]]⟩ : Heap Int)
    = .ok ⟨[1,2], 2, 0, true⟩ ⟨[some [5,6,6]]⟩ := rfl

/-! ## C29 convert_average -/

theorem convert_gen {t : IntTy} (hsb : 0 < t.sumType.bits) {h : Heap Int} {input : Interleaved} {output : Gray}
    (hv : input.Valid h) (ho : output.Valid h) (hne : input.buf ≠ output.buf) {f : Nat → Nat → Nat → Int}
    (hf : input.Shows h f) (hc : output.CanBe input.width input.height) (hnb : 0 < input.numBands)
    (hpre : ∀ x y b, x < input.width → y < input.height → b ≤ input.numBands → t.sumType.InRange (sumN b (f x y)))
    {F : Nat → Nat → Int} (hq : ∀ x y (h : Heap Int), x < input.width → y < input.height →
      ∃ q, ImageStatistics.divU32 t.sumType (sumN input.numBands (f x y)) input.numBands h = .ok q h ∧ t.cast q = F x y) :
    ∃ o h', convertAverage t input output h = .ok o h' ∧
      Produced h h' output o input.width input.height F ∧
      input.Valid h' ∧ input.Shows h' f := by
  have harea : input.width * input.height < P32 := by
    have h1 := hv.flat.area_lt
    have h2 : input.width * input.height ≤ input.width * input.numBands * input.height := by
      rw [Nat.mul_right_comm]; exact Nat.le_mul_of_pos_right _ hnb
    have h3 : input.width * input.numBands * input.height < P32 := h1
    omega
  obtain ⟨o, h1, e1, r⟩ := reshape_spec (0 : Int) ho hv.widthLt hv.heightLt harea hc
  have hin : ∀ i, h1.cell input.buf i = h.cell input.buf i := fun i => r.frame _ _ hne hv.lt_next
  have hobuf : input.buf ≠ o.buf := by
    rcases r.buf with ⟨e, _⟩ | ⟨e, _⟩
    · rw [e]; exact hne
    · have := hv.lt_next; omega
  suffices hp : Spec (M.loop input.height (fun y => M.loop input.width (fun x => do
      let sum ← M.loopS input.numBands 0 (fun band sum => do
        let v ← M.rd input.buf (wrap32 (input.offset + y * input.stride) + (x * input.numBands + band))
        t.sumType.arith (sum + v))
      let q ← ImageStatistics.divU32 t.sumType sum input.numBands
      M.wr o.buf (wrap32 (o.offset + y * o.stride) + x) (t.cast q)))) h1
      (fun _ h2 => Painted h1 h2 o (fun x y => some (F x y))) by
    obtain ⟨_, h2, e2, p⟩ := hp
    refine ⟨o, h2, ?_, r.produced p, ?_, ?_⟩
    · unfold convertAverage
      rw [M.bind_ok e1, M.bind_ok e2]; rfl
    · have hcell : ∀ i, h2.cell input.buf i = h.cell input.buf i := fun i => by
        rw [p.frame _ _ (fun _ _ _ _ e => hobuf e.1), hin]
      refine { hv with live := ?_, cells := fun i hi => by rw [hcell]; exact hv.cells i hi }
      rw [p.alive, r.alive _ hne hv.lt_next]; exact hv.live
    · intro x y b hx hy hb'
      unfold Heap.px3
      rw [p.frame _ _ (fun _ _ _ _ e => hobuf e.1), hin]
      exact hf x y b hx hy hb'
  have ew : input.width = o.width := r.width.symm
  have eh : input.height = o.height := r.height.symm
  rw [show M.loop input.height = M.loop (V := Int) o.height from by rw [eh],
      show M.loop input.width = M.loop (V := Int) o.width from by rw [ew]]
  refine paint_loop2 F ?_
  intro y x h2 hy hx hp
  have hx' : x < input.width := by omega
  have hy' : y < input.height := by omega
  have hsum : M.loopS input.numBands 0 (fun band sum => do
        let v ← M.rd input.buf (wrap32 (input.offset + y * input.stride) + (x * input.numBands + band))
        t.sumType.arith (sum + v)) h2 = .ok (sumN input.numBands (f x y)) h2 := by
    suffices Spec (M.loopS input.numBands 0 (fun band sum => do
        let v ← M.rd input.buf (wrap32 (input.offset + y * input.stride) + (x * input.numBands + band))
        t.sumType.arith (sum + v))) h2 (fun s h3 => s = sumN input.numBands (f x y) ∧ h3 = h2) by
      obtain ⟨_, _, e, rfl, rfl⟩ := this; exact e
    refine Spec.conseq (Spec.loopS (fun b s h3 => s = sumN b (f x y) ∧ h3 = h2) ⟨rfl, rfl⟩ ?_) (fun _ _ p => p)
    rintro b s h3 hb' ⟨rfl, rfl⟩
    have hrow := hv.flat.row_eq (y := y) hy'
    have hrow : wrap32 (input.offset + y * input.stride) = input.offset + y * input.stride := hrow
    have hrd : M.rd input.buf (wrap32 (input.offset + y * input.stride) + (x * input.numBands + b)) h3 = .ok (f x y b) h3 := by
      apply M.rd_run
      rw [hrow, hp.frame _ _ (fun _ _ _ _ e => hobuf e.1), hin, ← hf x y b hx' hy' hb']
      unfold Heap.px3 Interleaved.addr
      rw [Nat.add_assoc (input.offset + y * input.stride)]
    refine Spec.bind_eq hrd ?_
    refine Spec.of_eq (IntTy.arith_run hsb ?_ _) ⟨rfl, rfl⟩
    have := hpre x y (b+1) hx' hy' (by omega)
    exact this
  refine Spec.bind_eq hsum ?_
  obtain ⟨q, eq, ecast⟩ := hq x y h2 hx' hy'
  refine Spec.bind_eq eq ?_
  refine upto_wr r.valid hp hx hy ?_ ecast
  rw [r.valid.row_eq hy]; unfold Gray.addr; omega

theorem convert_run {t : IntTy} (hb : 0 < t.bits) (hsb : 0 < t.sumType.bits) {h : Heap Int} {input : Interleaved} {output : Gray}
    (hv : input.Valid h) (ho : output.Valid h) (hne : input.buf ≠ output.buf) {f : Nat → Nat → Nat → Int}
    (hf : input.Shows h f) (hc : output.CanBe input.width input.height) (hnb : 0 < input.numBands)
    (hr : ∀ x y b, x < input.width → y < input.height → b < input.numBands → t.InRange (f x y b))
    (hpre : ∀ x y b, x < input.width → y < input.height → b ≤ input.numBands → t.sumType.InRange (sumN b (f x y)))
    (hd : t.sumType = S64 ∨ ∀ x y, x < input.width → y < input.height →
      0 ≤ sumN input.numBands (f x y) ∧ sumN input.numBands (f x y) < P32) :
    ∃ o h', convertAverage t input output h = .ok o h' ∧
      Produced h h' output o input.width input.height
        (fun x y => (sumN input.numBands (f x y)).tdiv input.numBands) ∧
      input.Valid h' ∧ input.Shows h' f := by
  refine convert_gen hsb hv ho hne hf hc hnb hpre (fun x y h hx hy => ⟨_, divU32_run hnb ?_ h, ?_⟩)
  · rcases hd with e | e
    · exact Or.inl e
    · exact Or.inr (e x y hx hy)
  · refine IntTy.cast_of_inRange hb ?_
    exact tdiv_between (by omega) (le_sumN (fun b hb' => (hr x y b hx hy hb').1))
      (sumN_le (fun b hb' => (hr x y b hx hy hb').2))

/-- Unsigned types (8 bit up to 2^24 bands, 16 bit up to 2^16 bands): each output pixel is the average of the bands,
rounded down, and the input is unchanged.  `Produced` also says that the output has the input's shape and that nothing else
is modified. -/
theorem C29_unsigned {t : IntTy} (ht : t = U8 ∨ t = U16) {h : Heap Int} {input : Interleaved} {output : Gray}
    (hv : input.Valid h) (ho : output.Valid h) (hne : input.buf ≠ output.buf) {f : Nat → Nat → Nat → Int}
    (hf : input.Shows h f) (hc : output.CanBe input.width input.height) (hnb : 0 < input.numBands)
    (hr : ∀ x y b, x < input.width → y < input.height → b < input.numBands → t.InRange (f x y b))
    (hmax : (input.numBands : Int) * t.hi < 4294967296) :
    ∃ o h', convertAverage t input output h = .ok o h' ∧
      Produced h h' output o input.width input.height
        (fun x y => (sumN input.numBands (f x y)).tdiv input.numBands) ∧
      input.Valid h' ∧ input.Shows h' f := by
  have hst : t.sumType = U32 := by rcases ht with rfl | rfl <;> rfl
  have hlo : t.lo = 0 := by rcases ht with rfl | rfl <;> rfl
  have hhi : 0 ≤ t.hi := by rcases ht with rfl | rfl <;> decide
  have hbnd : ∀ x y b, x < input.width → y < input.height → b ≤ input.numBands →
      0 ≤ sumN b (f x y) ∧ sumN b (f x y) < 4294967296 := by
    intro x y b hx hy hb
    have h1 := sumN_nonneg (n := b) (f := f x y) (fun i hi => by
      have := (hr x y i hx hy (by omega)).1; rwa [hlo] at this)
    have h2 := sumN_le (n := b) (f := f x y) (c := t.hi) (fun i hi => (hr x y i hx hy (by omega)).2)
    have h3 : (b : Int) * t.hi ≤ (input.numBands : Int) * t.hi := Int.mul_le_mul_of_nonneg_right (by omega) hhi
    omega
  refine convert_run (by rcases ht with rfl | rfl <;> decide) (by rw [hst]; decide) hv ho hne hf hc hnb hr ?_ ?_
  · intro x y b hx hy hb
    rw [hst]
    have := hbnd x y b hx hy hb
    show (0:Int) ≤ _ ∧ _ ≤ (4294967295 : Int)
    omega
  · exact Or.inr (fun x y hx hy => hbnd x y _ hx hy (Nat.le_refl _))

/-- The average lies between any bounds of the bands at that pixel. -/
theorem C29_bounds {nb : Nat} (hnb : 0 < nb) {v : Nat → Int} {lo hi : Int} (hb : ∀ b, b < nb → lo ≤ v b ∧ v b ≤ hi) :
    lo ≤ (sumN nb v).tdiv nb ∧ (sumN nb v).tdiv nb ≤ hi :=
  tdiv_between (by omega) (le_sumN (fun b h => (hb b h).1)) (sumN_le (fun b h => (hb b h).2))

/-- Full statement C29 for signed 16- and 32-bit types; proved when the sums are not negative, otherwise false
(`C29_refuted`).  The running sums must be representable. -/
theorem C29_signed_partial {t : IntTy} (ht : t = S16 ∨ t = S32) {h : Heap Int} {input : Interleaved} {output : Gray}
    (hv : input.Valid h) (ho : output.Valid h) (hne : input.buf ≠ output.buf) {f : Nat → Nat → Nat → Int}
    (hf : input.Shows h f) (hc : output.CanBe input.width input.height) (hnb : 0 < input.numBands)
    (hr : ∀ x y b, x < input.width → y < input.height → b < input.numBands → t.InRange (f x y b))
    (hpre : ∀ x y b, x < input.width → y < input.height → b ≤ input.numBands → S32.InRange (sumN b (f x y)))
    (hnn : ∀ x y, x < input.width → y < input.height → 0 ≤ sumN input.numBands (f x y)) :
    ∃ o h', convertAverage t input output h = .ok o h' ∧
      Produced h h' output o input.width input.height
        (fun x y => (sumN input.numBands (f x y)).tdiv input.numBands) ∧
      input.Valid h' ∧ input.Shows h' f := by
  have hst : t.sumType = S32 := by rcases ht with rfl | rfl <;> rfl
  refine convert_run (by rcases ht with rfl | rfl <;> decide) (by rw [hst]; decide) hv ho hne hf hc hnb hr
    (by rw [hst]; exact hpre) (Or.inr (fun x y hx hy => ⟨hnn x y hx hy, ?_⟩))
  have : sumN input.numBands (f x y) ≤ 2147483647 := (hpre x y input.numBands hx hy (Nat.le_refl _)).2
  unfold P32; omega

/-- 64-bit: exact, also for negative sums. -/
theorem C29_s64 {h : Heap Int} {input : Interleaved} {output : Gray}
    (hv : input.Valid h) (ho : output.Valid h) (hne : input.buf ≠ output.buf) {f : Nat → Nat → Nat → Int}
    (hf : input.Shows h f) (hc : output.CanBe input.width input.height) (hnb : 0 < input.numBands)
    (hr : ∀ x y b, x < input.width → y < input.height → b < input.numBands → S64.InRange (f x y b))
    (hpre : ∀ x y b, x < input.width → y < input.height → b ≤ input.numBands → S64.InRange (sumN b (f x y))) :
    ∃ o h', convertAverage S64 input output h = .ok o h' ∧
      Produced h h' output o input.width input.height
        (fun x y => (sumN input.numBands (f x y)).tdiv input.numBands) ∧
      input.Valid h' ∧ input.Shows h' f :=
  convert_run (by decide) (by decide) hv ho hne hf hc hnb hr hpre (Or.inl rfl)

/-- What signed 16- and 32-bit images give whatever the signs: a pixel whose bands have a negative sum gets the sum modulo
2^32, divided by the number of bands. -/
theorem C29_signed {t : IntTy} (ht : t = S16 ∨ t = S32) {h : Heap Int} {input : Interleaved} {output : Gray}
    (hv : input.Valid h) (ho : output.Valid h) (hne : input.buf ≠ output.buf) {f : Nat → Nat → Nat → Int}
    (hf : input.Shows h f) (hc : output.CanBe input.width input.height) (hnb : 0 < input.numBands)
    (hr : ∀ x y b, x < input.width → y < input.height → b < input.numBands → t.InRange (f x y b))
    (hpre : ∀ x y b, x < input.width → y < input.height → b ≤ input.numBands → S32.InRange (sumN b (f x y))) :
    ∃ o h', convertAverage t input output h = .ok o h' ∧
      Produced h h' output o input.width input.height
        (fun x y => if sumN input.numBands (f x y) < 0
          then t.cast ((4294967296 + sumN input.numBands (f x y)) / input.numBands)
          else (sumN input.numBands (f x y)).tdiv input.numBands) ∧
      input.Valid h' ∧ input.Shows h' f := by
  have hst : t.sumType = S32 := by rcases ht with rfl | rfl <;> rfl
  refine convert_gen (by rw [hst]; decide) hv ho hne hf hc hnb (by rw [hst]; exact hpre) (fun x y h hx hy => ?_)
  have hin := hpre x y input.numBands hx hy (Nat.le_refl _)
  have hin1 : -2147483648 ≤ sumN input.numBands (f x y) := hin.1
  have hin2 : sumN input.numBands (f x y) ≤ 2147483647 := hin.2
  by_cases hneg : sumN input.numBands (f x y) < 0
  · refine ⟨(4294967296 + sumN input.numBands (f x y)) / input.numBands, ?_, (if_pos hneg).symm⟩
    unfold ImageStatistics.divU32
    rw [if_neg (by omega), if_neg (by rw [hst]; decide)]
    have e2 : ((toU32 (sumN input.numBands (f x y)) : Nat) : Int) = 4294967296 + sumN input.numBands (f x y) := by
      unfold toU32 P32; omega
    show Res.ok _ h = _
    rw [Int.natCast_ediv, e2]
  · refine ⟨_, divU32_run hnb (Or.inr ⟨by omega, by unfold P32; omega⟩) h, ?_⟩
    rw [if_neg hneg]
    refine IntTy.cast_of_inRange (by rcases ht with rfl | rfl <;> decide) ?_
    exact tdiv_between (by omega) (le_sumN (fun b hb' => (hr x y b hx hy hb').1))
      (sumN_le (fun b hb' => (hr x y b hx hy hb').2))

/-- One 16-bit pixel with three bands, all -1: the average is computed as 21844. -/
theorem C29_refuted :
    ∃ (h h' : Heap Int) (input : Interleaved) (o : Gray), input.Valid h ∧ o.Valid h ∧
      convertAverage S16 input o h = .ok o h' ∧ h'.px o 0 0 = some 21844 ∧
      (∀ b, b < 3 → h.px3 input 0 0 b = some (-1)) :=
  ⟨⟨[some [-1,-1,-1], some [0]]⟩, ⟨[some [-1,-1,-1], some [21844]]⟩, ⟨0, 3, 1, 1, 3, 0, 3, false⟩,
    ⟨1, 1, 1, 1, 0, 1, false⟩, by decide, by decide, rfl, rfl, by decide⟩

/-- Without bands the conversion of a non-empty image divides by zero. -/
theorem C29_no_bands :
    convertAverage U8 ⟨0, 0, 1, 1, 0, 0, 0, false⟩ ⟨1, 1, 1, 1, 0, 1, false⟩ (⟨[some [], some [0]]⟩ : Heap Int) = .ub := rfl

example : convertAverage U8 ⟨0, 4, 2, 1, 2, 0, 4, false⟩ ⟨1, 2, 2, 1, 0, 2, false⟩ (⟨[some [1,2,4,6], some [0,0]]⟩ : Heap Int)
    = .ok ⟨1, 2, 2, 1, 0, 2, false⟩ ⟨[some [1,2,4,6], some [1,5]]⟩ := rfl

end Boof
