import Verif.Proofs.Counts
import Verif.Props.Statistics
import Verif.Props.Images
import Verif.Proofs.Nearby
/-
C120: statistics depend on how often each value occurs, and add up over the parts of an image.
-/
namespace Boof
open M

theorem sumN_mirrored (b : Bool) (n : Nat) (f : Nat → Int) : sumN n (fun i => f (mirrorIf b n i)) = sumN n f := by
  have := sumN_mirrorIf (a := b) (n := n) (lo := 0) (hi := n) (le_refl _) f
  cases b
  · rfl
  · simpa [mirHi, mirLo] using this

theorem sumN_exchange (n m : Nat) (f : Nat → Nat → Int) : sumN n (fun i => sumN m (fun j => f i j)) = sumN m (fun j => sumN n (fun i => f i j)) := by
  induction n with
  | zero => exact (sumN_zero m).symm
  | succ n ih => simp only [sumN]; rw [sumN_add, ih]

theorem parts_add {t : IntTy} (ht : t = U8 ∨ t = U16) {h : Heap Int} {a l s : Gray} (ha : a.Valid h) {f f1 f2 : Nat → Nat → Int} (hf : a.Shows h f)
    (hl : l.Valid h) (hf1 : l.Shows h f1) (hs : s.Valid h) (hf2 : s.Shows h f2)
    {m : Int} {p q r : GrowArray Int} (hp : p.size ≤ p.data.length) (hq : q.size ≤ q.data.length) (hr : r.size ≤ r.data.length)
    (eq : q.size = p.size) (er : r.size = p.size)
    (add : ∀ φ : Int → Int, pixelSum a.width a.height (fun x y => φ (f x y)) =
      pixelSum l.width l.height (fun x y => φ (f1 x y)) + pixelSum s.width s.height (fun x y => φ (f2 x y)))
    (r0 : ∀ x y, x < a.width → y < a.height → m ≤ f x y ∧ f x y < m + p.size ∧ f x y - m < 2147483648)
    (r1 : ∀ x y, x < l.width → y < l.height → m ≤ f1 x y ∧ f1 x y < m + p.size ∧ f1 x y - m < 2147483648)
    (r2 : ∀ x y, x < s.width → y < s.height → m ≤ f2 x y ∧ f2 x y < m + p.size ∧ f2 x y - m < 2147483648) :
    (∃ v v1 v2, ImageStatistics.sum t a h = .ok v h ∧ ImageStatistics.sum t l h = .ok v1 h ∧ ImageStatistics.sum t s h = .ok v2 h ∧
        v = (v1 + v2) % 4294967296) ∧
      ∃ p' q' r', ImageStatistics.histogram t a m p h = .ok p' h ∧ ImageStatistics.histogram t l m q h = .ok q' h ∧
        ImageStatistics.histogram t s m r h = .ok r' h ∧
        ∀ i : Nat, i < p.size → ∃ u v, q'.data[i]? = some u ∧ r'.data[i]? = some v ∧ p'.data[i]? = some (u + v) := by
  have ht' : t = U8 ∨ t = U16 ∨ t = S16 ∨ t = S32 ∨ t = S64 := by rcases ht with e | e <;> simp [e]
  constructor
  · obtain ⟨v, e, c, -⟩ := C25_sum_unsigned ht ha hf
    obtain ⟨v1, e1, c1, -⟩ := C25_sum_unsigned ht hl hf1
    obtain ⟨v2, e2, c2, -⟩ := C25_sum_unsigned ht hs hf2
    have := add (fun v => v)
    refine ⟨v, v1, v2, e, e1, e2, ?_⟩
    rw [c, c1, c2, this, ← Int.add_emod]
  · obtain ⟨p', e, -, c, -⟩ := C28_histogram ht' ha hf hp r0
    obtain ⟨q', e1, -, c1, -⟩ := C28_histogram ht' hl hf1 hq (by rw [eq]; exact r1)
    obtain ⟨r', e2, -, c2, -⟩ := C28_histogram ht' hs hf2 hr (by rw [er]; exact r2)
    refine ⟨p', q', r', e, e1, e2, fun i hi => ⟨_, _, c1 i (by omega), c2 i (by omega), ?_⟩⟩
    rw [c i hi]
    exact congrArg some (add (fun w => if w = m + i then 1 else 0))

/-- `sum` of two images of unsigned pixels with the same values, in any order and shape. -/
theorem C120_sum {t : IntTy} (ht : t = U8 ∨ t = U16) {h k : Heap Int} {a b : Gray} (ha : a.Valid h) (hb : b.Valid k)
    {f g : Nat → Nat → Int} (hf : a.Shows h f) (hg : b.Shows k g) (same : SamePixels a.width a.height f b.width b.height g) :
    ∃ s, ImageStatistics.sum t a h = .ok s h ∧ ImageStatistics.sum t b k = .ok s k := by
  obtain ⟨s, e, q, -⟩ := C25_sum_unsigned ht ha hf
  obtain ⟨s', e', q', -⟩ := C25_sum_unsigned ht hb hg
  have : pixelSum a.width a.height f = pixelSum b.width b.height g := same.sum (fun v => v)
  rw [q', ← this, ← q] at e'
  exact ⟨s, e, e'⟩

/-- For 16-bit signed images this holds up to 65535 pixels. -/
theorem C120_sum_s16 {h k : Heap Int} {a b : Gray} (ha : a.Valid h) (hb : b.Valid k)
    {f g : Nat → Nat → Int} (hf : a.Shows h f) (hg : b.Shows k g) (same : SamePixels a.width a.height f b.width b.height g)
    (hr : ∀ x y, x < a.width → y < a.height → S16.InRange (f x y)) (hsmall : a.width * a.height ≤ 65535) :
    ∃ s, ImageStatistics.sum S16 a h = .ok s h ∧ ImageStatistics.sum S16 b k = .ok s k := by
  have e := C25_sum_s16 ha hf hr hsmall
  have e' := C25_sum_s16 hb hg (fun x y hx hy => same.all hr hx hy) (by rw [← same.area]; exact hsmall)
  have : pixelSum a.width a.height f = pixelSum b.width b.height g := same.sum (fun v => v)
  rw [← this] at e'
  exact ⟨_, e, e'⟩

/-- `mean`. -/
theorem C120_mean {t : IntTy} (ht : t = U8 ∨ t = U16) {h k : Heap Int} {a b : Gray} (ha : a.Valid h) (hb : b.Valid k)
    {f g : Nat → Nat → Int} (hf : a.Shows h f) (hg : b.Shows k g) (same : SamePixels a.width a.height f b.width b.height g)
    (hr : ∀ x y, x < a.width → y < a.height → t.InRange (f x y)) (h0 : 0 < a.width * a.height)
    (hsum : pixelSum a.width a.height f < 4294967296) :
    ∃ s, ImageStatistics.mean t a h = .ok s h ∧ ImageStatistics.mean t b k = .ok s k := by
  have ar := same.area
  have hs : pixelSum a.width a.height f = pixelSum b.width b.height g := same.sum (fun v => v)
  have p1 := Nat.pos_of_mul_pos_right h0
  have p2 := Nat.pos_of_mul_pos_left h0
  have h0' : 0 < b.width * b.height := by omega
  obtain ⟨e, -⟩ := C27_mean_unsigned ht ha hf hr (Nat.pos_of_ne_zero (fun c => by rw [c] at h0; omega)) (Nat.pos_of_ne_zero (fun c => by rw [c] at h0; omega)) hsum
  obtain ⟨e', -⟩ := C27_mean_unsigned ht hb hg (fun x y hx hy => same.all hr hx hy) (Nat.pos_of_ne_zero (fun c => by rw [c] at h0'; omega))
    (Nat.pos_of_ne_zero (fun c => by rw [c] at h0'; omega)) (by rw [← hs]; exact hsum)
  rw [← hs, ← ar] at e'
  exact ⟨_, e, e'⟩

/-- `min` and `max` of images that own their arrays. -/
theorem C120_minmax {t : IntTy} {h k : Heap Int} {a b : Gray} (ha : a.Valid h) (hb : b.Valid k) (sa : a.subimage = false) (sb : b.subimage = false)
    {f g : Nat → Nat → Int} (hf : a.Shows h f) (hg : b.Shows k g) (same : SamePixels a.width a.height f b.width b.height g)
    (hr : ∀ x y, x < a.width → y < a.height → t.InRange (f x y)) (h0 : 0 < a.width * a.height) :
    ∃ lo hi, ImageStatistics.min (fun a b => decide (a < b)) t.hi a h = .ok lo h ∧ ImageStatistics.max (fun a b => decide (a < b)) t.lo a h = .ok hi h ∧
      ImageStatistics.min (fun a b => decide (a < b)) t.hi b k = .ok lo k ∧ ImageStatistics.max (fun a b => decide (a < b)) t.lo b k = .ok hi k := by
  have h0' : 0 < b.width * b.height := by rw [← same.area]; exact h0
  obtain ⟨lo, hi, e1, e2, ⟨x1, y1, p1, p2, p3⟩, ⟨x2, y2, q1, q2, q3⟩, bd⟩ := C26_int (t := t) ha sa (Nat.pos_of_ne_zero (fun c => by rw [c] at h0; omega))
    (Nat.pos_of_ne_zero (fun c => by rw [c] at h0; omega)) hf hr
  obtain ⟨lo', hi', e1', e2', ⟨x1', y1', p1', p2', p3'⟩, ⟨x2', y2', q1', q2', q3'⟩, bd'⟩ := C26_int (t := t) hb sb
    (Nat.pos_of_ne_zero (fun c => by rw [c] at h0'; omega)) (Nat.pos_of_ne_zero (fun c => by rw [c] at h0'; omega)) hg (fun x y hx hy => same.all hr hx hy)
  have c1 := same.all (P := fun v => lo ≤ v ∧ v ≤ hi) bd p1' p2'
  have c2 := same.all (P := fun v => lo ≤ v ∧ v ≤ hi) bd q1' q2'
  have c3 := same.symm.all (P := fun v => lo' ≤ v ∧ v ≤ hi') bd' p1 p2
  have c4 := same.symm.all (P := fun v => lo' ≤ v ∧ v ≤ hi') bd' q1 q2
  have el : lo' = lo := by omega
  have eh : hi' = hi := by omega
  rw [el] at e1'
  rw [eh] at e2'
  exact ⟨lo, hi, e1, e2, e1', e2'⟩

/-- `histogram`, with arrays of equal size. -/
theorem C120_histogram {t : IntTy} (ht : t = U8 ∨ t = U16 ∨ t = S16 ∨ t = S32 ∨ t = S64) {h k : Heap Int} {a b : Gray} (ha : a.Valid h) (hb : b.Valid k)
    {f g : Nat → Nat → Int} (hf : a.Shows h f) (hg : b.Shows k g) (same : SamePixels a.width a.height f b.width b.height g)
    {m : Int} {p q : GrowArray Int} (hp : p.size ≤ p.data.length) (hq : q.size ≤ q.data.length) (es : q.size = p.size)
    (hr : ∀ x y, x < a.width → y < a.height → m ≤ f x y ∧ f x y < m + p.size ∧ f x y - m < 2147483648) :
    ∃ p' q', ImageStatistics.histogram t a m p h = .ok p' h ∧ ImageStatistics.histogram t b m q k = .ok q' k ∧ q'.size = p'.size ∧
      ∀ i : Nat, i < p'.size → p'.data[i]? = q'.data[i]? := by
  obtain ⟨p', e, z, c, -⟩ := C28_histogram ht ha hf hp hr
  obtain ⟨q', e', z', c', -⟩ := C28_histogram ht hb hg hq (by
    rw [es]
    exact fun x y hx hy => same.all (P := fun v => m ≤ v ∧ v < m + p.size ∧ v - m < 2147483648) hr hx hy)
  refine ⟨p', q', e, e', by omega, fun i hi => ?_⟩
  rw [c i (by omega), c' i (by omega), same]

/-- The numbers 5, 9, 5, 7 in a row and in a square, in another order. -/
example :
    ImageStatistics.sum U8 ⟨0, 4, 4, 1, 0, 4, false⟩ (⟨[some [5,9,5,7]]⟩ : Heap Int) = .ok 26 ⟨[some [5,9,5,7]]⟩ ∧
    ImageStatistics.sum U8 ⟨0, 4, 2, 2, 0, 2, false⟩ (⟨[some [7,5,5,9]]⟩ : Heap Int) = .ok 26 ⟨[some [7,5,5,9]]⟩ ∧
    ImageStatistics.histogram U8 ⟨0, 4, 4, 1, 0, 4, false⟩ 5 ⟨[0,0,0,0,0], 5, 0, true⟩ (⟨[some [5,9,5,7]]⟩ : Heap Int) = .ok ⟨[2,0,1,0,1], 5, 0, true⟩ ⟨[some [5,9,5,7]]⟩ ∧
    ImageStatistics.histogram U8 ⟨0, 4, 2, 2, 0, 2, false⟩ 5 ⟨[1,2,3,4,5,6], 5, 0, true⟩ (⟨[some [7,5,5,9]]⟩ : Heap Int) = .ok ⟨[2,0,1,0,1,6], 5, 0, true⟩ ⟨[some [7,5,5,9]]⟩ := by
  decide +kernel

example : SamePixels 4 1 (fun x _ => ([5,9,5,7] : List Int).getD x 0) 2 2 (fun x y => ([7,5,5,9] : List Int).getD (2 * y + x) 0) := by
  intro v
  simp only [pixelCount, pixelSum, sumN, List.getD_cons_zero, List.getD_cons_succ, Nat.mul_zero, Nat.zero_add]
  omega

/-- An image and its mirror image, left to right, upside down or both. -/
theorem C120_mirrored (w h : Nat) (a b : Bool) (f : Nat → Nat → Int) : SamePixels w h f w h (mirrored a b w h f) := by
  intro v
  unfold pixelCount pixelSum mirrored
  rw [sumN_mirrored b h (fun y => sumN w (fun x => if f (mirrorIf a w x) y = v then 1 else 0))]
  exact sumN_congr (fun y _ => (sumN_mirrored a w (fun x => if f x y = v then 1 else 0)).symm)

/-- An image and the one with rows and columns exchanged. -/
theorem C120_transposed (w h : Nat) (f : Nat → Nat → Int) : SamePixels w h f h w (transposed f) := by
  intro v
  unfold pixelCount pixelSum transposed
  exact sumN_exchange h w (fun y x => if f x y = v then 1 else 0)

/-- What `sum` and `histogram` say about an image is the sum of what they say about the parts left and right of column `c`. -/
theorem C120_columns {t : IntTy} (ht : t = U8 ∨ t = U16) {h : Heap Int} {a : Gray} (ha : a.Valid h) {f : Nat → Nat → Int} (hf : a.Shows h f)
    {c : Nat} (hc : c ≤ a.width) {m : Int} {p q r : GrowArray Int} (hp : p.size ≤ p.data.length) (hq : q.size ≤ q.data.length) (hr : r.size ≤ r.data.length)
    (eq : q.size = p.size) (er : r.size = p.size)
    (hrange : ∀ x y, x < a.width → y < a.height → m ≤ f x y ∧ f x y < m + p.size ∧ f x y - m < 2147483648) :
    ∃ l s, (a.makeSubimage 0 0 c a.height : M Int Gray) h = .ok l h ∧ (a.makeSubimage c 0 a.width a.height : M Int Gray) h = .ok s h ∧
      (∃ v v1 v2, ImageStatistics.sum t a h = .ok v h ∧ ImageStatistics.sum t l h = .ok v1 h ∧ ImageStatistics.sum t s h = .ok v2 h ∧
        v = (v1 + v2) % 4294967296) ∧
      ∃ p' q' r', ImageStatistics.histogram t a m p h = .ok p' h ∧ ImageStatistics.histogram t l m q h = .ok q' h ∧
        ImageStatistics.histogram t s m r h = .ok r' h ∧
        ∀ i : Nat, i < p.size → ∃ u v, q'.data[i]? = some u ∧ r'.data[i]? = some v ∧ p'.data[i]? = some (u + v) := by
  obtain ⟨l, e1, v1, -, w1, g1, b1, a1⟩ := C04_window ha (x0 := 0) (y0 := 0) (x1 := c) (y1 := a.height) (Nat.zero_le _) hc (Nat.zero_le _) (le_refl _)
  obtain ⟨s, e2, v2, -, w2, g2, b2, a2⟩ := C04_window ha (x0 := c) (y0 := 0) (x1 := a.width) (y1 := a.height) hc (le_refl _) (Nat.zero_le _) (le_refl _)
  have s1 : l.Shows h f := fun x y hx hy => by
    unfold Heap.px
    rw [b1, a1 x y hx hy, Nat.zero_add, Nat.zero_add]
    exact hf x y (by omega) (by omega)
  have s2 : s.Shows h (fun x y => f (c + x) y) := fun x y hx hy => by
    unfold Heap.px
    rw [b2, a2 x y hx hy, Nat.zero_add]
    exact hf (c + x) y (by omega) (by omega)
  rw [Nat.sub_zero] at w1 g1 g2
  exact ⟨l, s, e1, e2, parts_add ht ha hf v1 s1 v2 s2 hp hq hr eq er (fun φ => by rw [w1, g1, w2, g2]; exact pixelSum_columns hc _) hrange
    (fun x y hx hy => hrange x y (by omega) (by omega)) (fun x y hx hy => hrange (c + x) y (by omega) (by omega))⟩

/-- The same above and below row `c`. -/
theorem C120_rows {t : IntTy} (ht : t = U8 ∨ t = U16) {h : Heap Int} {a : Gray} (ha : a.Valid h) {f : Nat → Nat → Int} (hf : a.Shows h f)
    {c : Nat} (hc : c ≤ a.height) {m : Int} {p q r : GrowArray Int} (hp : p.size ≤ p.data.length) (hq : q.size ≤ q.data.length) (hr : r.size ≤ r.data.length)
    (eq : q.size = p.size) (er : r.size = p.size)
    (hrange : ∀ x y, x < a.width → y < a.height → m ≤ f x y ∧ f x y < m + p.size ∧ f x y - m < 2147483648) :
    ∃ l s, (a.makeSubimage 0 0 a.width c : M Int Gray) h = .ok l h ∧ (a.makeSubimage 0 c a.width a.height : M Int Gray) h = .ok s h ∧
      (∃ v v1 v2, ImageStatistics.sum t a h = .ok v h ∧ ImageStatistics.sum t l h = .ok v1 h ∧ ImageStatistics.sum t s h = .ok v2 h ∧
        v = (v1 + v2) % 4294967296) ∧
      ∃ p' q' r', ImageStatistics.histogram t a m p h = .ok p' h ∧ ImageStatistics.histogram t l m q h = .ok q' h ∧
        ImageStatistics.histogram t s m r h = .ok r' h ∧
        ∀ i : Nat, i < p.size → ∃ u v, q'.data[i]? = some u ∧ r'.data[i]? = some v ∧ p'.data[i]? = some (u + v) := by
  obtain ⟨l, e1, v1, -, w1, g1, b1, a1⟩ := C04_window ha (x0 := 0) (y0 := 0) (x1 := a.width) (y1 := c) (Nat.zero_le _) (le_refl _) (Nat.zero_le _) hc
  obtain ⟨s, e2, v2, -, w2, g2, b2, a2⟩ := C04_window ha (x0 := 0) (y0 := c) (x1 := a.width) (y1 := a.height) (Nat.zero_le _) (le_refl _) hc (le_refl _)
  have s1 : l.Shows h f := fun x y hx hy => by
    unfold Heap.px
    rw [b1, a1 x y hx hy, Nat.zero_add, Nat.zero_add]
    exact hf x y (by omega) (by omega)
  have s2 : s.Shows h (fun x y => f x (c + y)) := fun x y hx hy => by
    unfold Heap.px
    rw [b2, a2 x y hx hy, Nat.zero_add]
    exact hf x (c + y) (by omega) (by omega)
  rw [Nat.sub_zero] at w1 g1 w2
  exact ⟨l, s, e1, e2, parts_add ht ha hf v1 s1 v2 s2 hp hq hr eq er (fun φ => by rw [w1, g1, w2, g2]; exact pixelSum_rows hc _) hrange
    (fun x y hx hy => hrange x y (by omega) (by omega)) (fun x y hx hy => hrange x (c + y) (by omega) (by omega))⟩

/-- A `3 × 2` image cut after its first column. -/
example :
    (Gray.makeSubimage ⟨0, 6, 3, 2, 0, 3, false⟩ 0 0 1 2 : M Int Gray) ⟨[some [5,6,7,8,5,5]]⟩ = .ok ⟨0, 6, 1, 2, 0, 3, true⟩ ⟨[some [5,6,7,8,5,5]]⟩ ∧
    ImageStatistics.sum U8 ⟨0, 6, 3, 2, 0, 3, false⟩ (⟨[some [5,6,7,8,5,5]]⟩ : Heap Int) = .ok 36 ⟨[some [5,6,7,8,5,5]]⟩ ∧
    ImageStatistics.sum U8 ⟨0, 6, 1, 2, 0, 3, true⟩ (⟨[some [5,6,7,8,5,5]]⟩ : Heap Int) = .ok 13 ⟨[some [5,6,7,8,5,5]]⟩ ∧
    ImageStatistics.sum U8 ⟨0, 6, 2, 2, 1, 3, true⟩ (⟨[some [5,6,7,8,5,5]]⟩ : Heap Int) = .ok 23 ⟨[some [5,6,7,8,5,5]]⟩ ∧
    ImageStatistics.histogram U8 ⟨0, 6, 3, 2, 0, 3, false⟩ 5 ⟨[0,0,0,0], 4, 0, true⟩ (⟨[some [5,6,7,8,5,5]]⟩ : Heap Int) = .ok ⟨[3,1,1,1], 4, 0, true⟩ ⟨[some [5,6,7,8,5,5]]⟩ ∧
    ImageStatistics.histogram U8 ⟨0, 6, 1, 2, 0, 3, true⟩ 5 ⟨[0,0,0,0], 4, 0, true⟩ (⟨[some [5,6,7,8,5,5]]⟩ : Heap Int) = .ok ⟨[1,0,0,1], 4, 0, true⟩ ⟨[some [5,6,7,8,5,5]]⟩ ∧
    ImageStatistics.histogram U8 ⟨0, 6, 2, 2, 1, 3, true⟩ 5 ⟨[0,0,0,0], 4, 0, true⟩ (⟨[some [5,6,7,8,5,5]]⟩ : Heap Int) = .ok ⟨[2,1,1,0], 4, 0, true⟩ ⟨[some [5,6,7,8,5,5]]⟩ := by
  decide +kernel

end Boof
