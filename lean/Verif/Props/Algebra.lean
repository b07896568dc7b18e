import Verif.Proofs.Algebra
import Verif.Props.Convolve
/-
C90: convolution is linear.  C91: impulses.  C92: kernels multiply.

All three follow from what the convolution functions compute (C47 - C49); they are the laws with which users reason about filters.
-/
namespace Boof
open M
variable {V : Type}

theorem Makes.congr {r : Res (Heap V) Gray} {h : Heap V} {output : Gray} {w ht : Nat} {F F' : Nat → Nat → V}
    (hm : Makes r h output w ht F) (e : ∀ x y, x < w → y < ht → F x y = F' x y) : Makes r h output w ht F' := by
  obtain ⟨out, h', e1, p⟩ := hm
  exact ⟨out, h', e1, p.congr e⟩

theorem Makes.next {h : Heap V} {storage output : Gray} {w ht : Nat} {G F : Nat → Nat → V} {m1 : M V Gray} {m2 : Gray → M V Gray}
    (hm : Makes (m1 h) h storage w ht G) (ho : output.Valid h) (hne : storage.buf ≠ output.buf)
    (h2 : ∀ s h1, s.Valid h1 → s.width = w → s.height = ht → s.Shows h1 G → output.Valid h1 → s.buf ≠ output.buf →
      Makes (m2 s h1) h1 output w ht F) : MakesVia ((m1 >>= m2) h) h storage output w ht F := by
  obtain ⟨s, h1, e1, p⟩ := hm
  have ho1 : output.Valid h1 := ho.transfer (by rw [p.alive _ (Ne.symm hne) ho.lt_next]; exact ho.live)
    (fun i hi => by rw [p.frame _ _ (Ne.symm hne) ho.lt_next]; exact ho.cells i hi)
  have hb : s.buf ≠ output.buf := by
    rcases p.buf with ⟨e, -⟩ | hl
    · rw [e]; exact hne
    · have := ho.lt_next; omega
  obtain ⟨out, h', e2, q⟩ := h2 s h1 p.valid p.width p.height (fun x y hx hy => p.pix x y (by rw [← p.width]; exact hx) (by rw [← p.height]; exact hy))
    ho1 hb
  refine ⟨out, h', (M.bind_ok e1).trans e2, q.width, q.height, q.valid,
    fun x y hx hy => q.pix x y (by rw [← q.width]; exact hx) (by rw [← q.height]; exact hy), fun b i hs hob hlt => ?_⟩
  rw [q.frame b i hob (by have := p.nextLe; omega), p.frame b i hs hlt]

section
variable {K : Type} [Field K] [DecidableEq K] (z : K) (b : Border K) {h : Heap K} {output : Gray} {kw o : Nat} {k : Kernel K}

theorem makes_horizontal {c : Nat → K} {input : Gray} {f : Nat → Nat → K} (hk : k.Is1D kw o c) (hok : o < kw)
    (hi : input.Valid h) (hf : input.Shows h f) (ho : output.Valid h) (hc : output.CanBe input.width input.height)
    (hs : input.Sep output input.width input.height) (hw : input.width + kw ≤ 2147483648) (hh : input.height + kw ≤ 2147483648)
    (hr : b.Reach input.width o (kw - 1 - o)) :
    Makes (ConvolveImage.horizontal z (fieldArith K) k b input output h) h output input.width input.height
      (fun x y => sumF kw (fun k => c k * b.ext input.width input.height f ((x : Int) + k - o) y)) := by
  obtain ⟨out, h', e, p, -⟩ := C47_horizontal_partial z (fieldArith K) b hi ho hf hc hs hk hok hw (by omega) hr (fun x y _ _ => C47_exact)
  exact ⟨out, h', e, p⟩

theorem makes_vertical {c : Nat → K} {input : Gray} {f : Nat → Nat → K} (hk : k.Is1D kw o c) (hok : o < kw)
    (hi : input.Valid h) (hf : input.Shows h f) (ho : output.Valid h) (hc : output.CanBe input.width input.height)
    (hs : input.Sep output input.width input.height) (hw : input.width + kw ≤ 2147483648) (hh : input.height + kw ≤ 2147483648)
    (hr : b.Reach input.height o (kw - 1 - o)) :
    Makes (ConvolveImage.vertical z (fieldArith K) k b input output h) h output input.width input.height
      (fun x y => sumF kw (fun k => c k * b.ext input.width input.height f x ((y : Int) + k - o))) := by
  obtain ⟨out, h', e, p, -⟩ := C48_vertical_partial z (fieldArith K) b hi ho hf hc hs hk hok hh (by omega) hr (fun x y _ _ => C48_exact)
  exact ⟨out, h', e, p⟩

theorem makes_convolve {c : Nat → Nat → K} {input : Gray} {f : Nat → Nat → K} (hk : k.Is2D kw o c) (hok : o < kw) (hkw : kw < 65536)
    (hi : input.Valid h) (hf : input.Shows h f) (ho : output.Valid h) (hc : output.CanBe input.width input.height)
    (hs : input.Sep output input.width input.height) (hw : input.width + kw ≤ 2147483648) (hh : input.height + kw ≤ 2147483648)
    (hrx : b.Reach input.width o (kw - 1 - o)) (hry : b.Reach input.height o (kw - 1 - o)) :
    Makes (ConvolveImage.convolve z (fieldArith K) k b input output h) h output input.width input.height
      (fun x y => sumF kw (fun j => sumF kw (fun i => c i j * b.ext input.width input.height f ((x : Int) + i - o) ((y : Int) + j - o)))) := by
  obtain ⟨out, h', e, p, -⟩ := C49_convolve_partial z (fieldArith K) b hi ho hf hc hs hk hok hkw hw hh hrx hry (fun x y _ _ => C49_exact)
  exact ⟨out, h', e, p⟩

/-! ## C90 -/

section linear
variable {u v s : Gray} {f g : Nat → Nat → K} {p q : K}

/-- Convolving `p·u + q·v` horizontally gives `p` times the result for `u` plus `q` times the result for `v`. -/
theorem C90_horizontal {c : Nat → K} (hb : b.Homogeneous) (hk : k.Is1D kw o c) (hok : o < kw)
    (hu : u.Valid h) (hv : v.Valid h) (hs : s.Valid h) (hf : u.Shows h f) (hg : v.Shows h g)
    (hfg : s.Shows h (fun x y => p * f x y + q * g x y))
    (vw : v.width = u.width) (vh : v.height = u.height) (sw : s.width = u.width) (sh : s.height = u.height)
    (ho : output.Valid h) (hc : output.CanBe u.width u.height)
    (hsu : u.Sep output u.width u.height) (hsv : v.Sep output u.width u.height) (hss : s.Sep output u.width u.height)
    (hw : u.width + kw ≤ 2147483648) (hh : u.height + kw ≤ 2147483648) (hr : b.Reach u.width o (kw - 1 - o)) :
    ∃ F G, Makes (ConvolveImage.horizontal z (fieldArith K) k b u output h) h output u.width u.height F ∧
      Makes (ConvolveImage.horizontal z (fieldArith K) k b v output h) h output u.width u.height G ∧
      Makes (ConvolveImage.horizontal z (fieldArith K) k b s output h) h output u.width u.height
        (fun x y => p * F x y + q * G x y) := by
  have mv := makes_horizontal z b hk hok hv hg ho (by rw [vw, vh]; exact hc) (by rw [vw, vh]; exact hsv) (by omega) (by omega) (by rw [vw]; exact hr)
  have ms := makes_horizontal z b hk hok hs hfg ho (by rw [sw, sh]; exact hc) (by rw [sw, sh]; exact hss) (by omega) (by omega) (by rw [sw]; exact hr)
  rw [vw, vh] at mv
  rw [sw, sh] at ms
  refine ⟨_, _, makes_horizontal z b hk hok hu hf ho hc hsu hw hh hr, mv, ms.congr (fun x y _ _ => ?_)⟩
  simp only [ext_linear hb, sumF_eq, Finset.mul_sum, ← Finset.sum_add_distrib]
  exact Finset.sum_congr rfl (fun i _ => by ring)

/-- Vertically. -/
theorem C90_vertical {c : Nat → K} (hb : b.Homogeneous) (hk : k.Is1D kw o c) (hok : o < kw)
    (hu : u.Valid h) (hv : v.Valid h) (hs : s.Valid h) (hf : u.Shows h f) (hg : v.Shows h g)
    (hfg : s.Shows h (fun x y => p * f x y + q * g x y))
    (vw : v.width = u.width) (vh : v.height = u.height) (sw : s.width = u.width) (sh : s.height = u.height)
    (ho : output.Valid h) (hc : output.CanBe u.width u.height)
    (hsu : u.Sep output u.width u.height) (hsv : v.Sep output u.width u.height) (hss : s.Sep output u.width u.height)
    (hw : u.width + kw ≤ 2147483648) (hh : u.height + kw ≤ 2147483648) (hr : b.Reach u.height o (kw - 1 - o)) :
    ∃ F G, Makes (ConvolveImage.vertical z (fieldArith K) k b u output h) h output u.width u.height F ∧
      Makes (ConvolveImage.vertical z (fieldArith K) k b v output h) h output u.width u.height G ∧
      Makes (ConvolveImage.vertical z (fieldArith K) k b s output h) h output u.width u.height
        (fun x y => p * F x y + q * G x y) := by
  have mv := makes_vertical z b hk hok hv hg ho (by rw [vw, vh]; exact hc) (by rw [vw, vh]; exact hsv) (by omega) (by omega) (by rw [vh]; exact hr)
  have ms := makes_vertical z b hk hok hs hfg ho (by rw [sw, sh]; exact hc) (by rw [sw, sh]; exact hss) (by omega) (by omega) (by rw [sh]; exact hr)
  rw [vw, vh] at mv
  rw [sw, sh] at ms
  refine ⟨_, _, makes_vertical z b hk hok hu hf ho hc hsu hw hh hr, mv, ms.congr (fun x y _ _ => ?_)⟩
  simp only [ext_linear hb, sumF_eq, Finset.mul_sum, ← Finset.sum_add_distrib]
  exact Finset.sum_congr rfl (fun i _ => by ring)

/-- In two dimensions. -/
theorem C90_convolve {c : Nat → Nat → K} (hb : b.Homogeneous) (hk : k.Is2D kw o c) (hok : o < kw) (hkw : kw < 65536)
    (hu : u.Valid h) (hv : v.Valid h) (hs : s.Valid h) (hf : u.Shows h f) (hg : v.Shows h g)
    (hfg : s.Shows h (fun x y => p * f x y + q * g x y))
    (vw : v.width = u.width) (vh : v.height = u.height) (sw : s.width = u.width) (sh : s.height = u.height)
    (ho : output.Valid h) (hc : output.CanBe u.width u.height)
    (hsu : u.Sep output u.width u.height) (hsv : v.Sep output u.width u.height) (hss : s.Sep output u.width u.height)
    (hw : u.width + kw ≤ 2147483648) (hh : u.height + kw ≤ 2147483648)
    (hrx : b.Reach u.width o (kw - 1 - o)) (hry : b.Reach u.height o (kw - 1 - o)) :
    ∃ F G, Makes (ConvolveImage.convolve z (fieldArith K) k b u output h) h output u.width u.height F ∧
      Makes (ConvolveImage.convolve z (fieldArith K) k b v output h) h output u.width u.height G ∧
      Makes (ConvolveImage.convolve z (fieldArith K) k b s output h) h output u.width u.height
        (fun x y => p * F x y + q * G x y) := by
  have mv := makes_convolve z b hk hok hkw hv hg ho (by rw [vw, vh]; exact hc) (by rw [vw, vh]; exact hsv) (by omega) (by omega)
    (by rw [vw]; exact hrx) (by rw [vh]; exact hry)
  have ms := makes_convolve z b hk hok hkw hs hfg ho (by rw [sw, sh]; exact hc) (by rw [sw, sh]; exact hss) (by omega) (by omega)
    (by rw [sw]; exact hrx) (by rw [sh]; exact hry)
  rw [vw, vh] at mv
  rw [sw, sh] at ms
  refine ⟨_, _, makes_convolve z b hk hok hkw hu hf ho hc hsu hw hh hrx hry, mv, ms.congr (fun x y _ _ => ?_)⟩
  simp only [ext_linear hb, sumF_eq, Finset.mul_sum, ← Finset.sum_add_distrib]
  exact Finset.sum_congr rfl (fun j _ => Finset.sum_congr rfl (fun i _ => by ring))

end linear

/-! ## C91 -/

section impulses
variable {input : Gray} {f : Nat → Nat → K} {m m' : Nat}

/-- A kernel whose only coefficient other than zero is a one at position `m` shifts the picture by `m - o` columns; what moves in is
what the border shows. -/
theorem C91_horizontal (hk : k.Is1D kw o (impulse m)) (hok : o < kw) (hm : m < kw)
    (hi : input.Valid h) (hf : input.Shows h f) (ho : output.Valid h) (hc : output.CanBe input.width input.height)
    (hs : input.Sep output input.width input.height) (hw : input.width + kw ≤ 2147483648) (hh : input.height + kw ≤ 2147483648)
    (hr : b.Reach input.width o (kw - 1 - o)) :
    Makes (ConvolveImage.horizontal z (fieldArith K) k b input output h) h output input.width input.height
      (fun x y => b.ext input.width input.height f ((x : Int) + m - o) y) :=
  (makes_horizontal z b hk hok hi hf ho hc hs hw hh hr).congr (fun x y _ _ =>
    sumF_impulse hm (fun k => b.ext input.width input.height f ((x : Int) + k - o) y))

theorem C91_vertical (hk : k.Is1D kw o (impulse m)) (hok : o < kw) (hm : m < kw)
    (hi : input.Valid h) (hf : input.Shows h f) (ho : output.Valid h) (hc : output.CanBe input.width input.height)
    (hs : input.Sep output input.width input.height) (hw : input.width + kw ≤ 2147483648) (hh : input.height + kw ≤ 2147483648)
    (hr : b.Reach input.height o (kw - 1 - o)) :
    Makes (ConvolveImage.vertical z (fieldArith K) k b input output h) h output input.width input.height
      (fun x y => b.ext input.width input.height f x ((y : Int) + m - o)) :=
  (makes_vertical z b hk hok hi hf ho hc hs hw hh hr).congr (fun x y _ _ =>
    sumF_impulse hm (fun k => b.ext input.width input.height f x ((y : Int) + k - o)))

theorem C91_convolve (hk : k.Is2D kw o (fun i j => impulse m i * impulse m' j)) (hok : o < kw) (hkw : kw < 65536) (hm : m < kw) (hm' : m' < kw)
    (hi : input.Valid h) (hf : input.Shows h f) (ho : output.Valid h) (hc : output.CanBe input.width input.height)
    (hs : input.Sep output input.width input.height) (hw : input.width + kw ≤ 2147483648) (hh : input.height + kw ≤ 2147483648)
    (hrx : b.Reach input.width o (kw - 1 - o)) (hry : b.Reach input.height o (kw - 1 - o)) :
    Makes (ConvolveImage.convolve z (fieldArith K) k b input output h) h output input.width input.height
      (fun x y => b.ext input.width input.height f ((x : Int) + m - o) ((y : Int) + m' - o)) :=
  (makes_convolve z b hk hok hkw hi hf ho hc hs hw hh hrx hry).congr (fun x y _ _ => by
    have e : ∀ j, sumF kw (fun i => impulse m i * impulse m' j * b.ext input.width input.height f ((x : Int) + i - o) ((y : Int) + j - o)) =
        impulse m' j * b.ext input.width input.height f ((x : Int) + m - o) ((y : Int) + j - o) := fun j => by
      rw [← sumF_impulse hm (fun i => impulse m' j * b.ext input.width input.height f ((x : Int) + i - o) ((y : Int) + j - o))]
      simp only [sumF_eq]; exact Finset.sum_congr rfl (fun i _ => by ring)
    simp only [e]
    exact sumF_impulse hm' (fun j => b.ext input.width input.height f ((x : Int) + m - o) ((y : Int) + j - o)))

/-- In particular a one at the origin of the kernel copies the picture, whatever the border. -/
theorem C91_identity (hk : k.Is1D kw o (impulse o)) (hok : o < kw)
    (hi : input.Valid h) (hf : input.Shows h f) (ho : output.Valid h) (hc : output.CanBe input.width input.height)
    (hs : input.Sep output input.width input.height) (hw : input.width + kw ≤ 2147483648) (hh : input.height + kw ≤ 2147483648) :
    (b.Reach input.width o (kw - 1 - o) →
      Makes (ConvolveImage.horizontal z (fieldArith K) k b input output h) h output input.width input.height f) ∧
    (b.Reach input.height o (kw - 1 - o) →
      Makes (ConvolveImage.vertical z (fieldArith K) k b input output h) h output input.width input.height f) := by
  have e : ∀ x y : Nat, x < input.width → y < input.height → b.ext input.width input.height f x y = f x y := fun x y hx hy => by
    cases b with
    | extend => simp only [Border.ext, clampTo]; congr 1 <;> omega
    | reflect => simp only [Border.ext]; rw [mirror_in (by omega) (by omega), mirror_in (by omega) (by omega)]; simp
    | wrap =>
      simp only [Border.ext, wrapTo]
      rw [Int.emod_eq_of_lt (by omega) (by omega), Int.emod_eq_of_lt (by omega) (by omega)]; simp
    | value v => simp only [Border.ext]; rw [if_pos ⟨by omega, by omega, by omega, by omega⟩]; simp
  refine ⟨fun hr => (C91_horizontal z b hk hok hok hi hf ho hc hs hw hh hr).congr (fun x y hx hy => ?_),
    fun hr => (C91_vertical z b hk hok hok hi hf ho hc hs hw hh hr).congr (fun x y hx hy => ?_)⟩
  · rw [← e x y hx hy]; congr 1; omega
  · rw [← e x y hx hy]; congr 1; omega

end impulses

/-! ## C92 -/

section product
variable {input storage : Gray} {f : Nat → Nat → K} {k' kk : Kernel K} {c d : Nat → K}

/-- A two dimensional kernel which is the product of a row and a column: convolving with it is convolving horizontally with the row and
then vertically with the column. -/
theorem C92_separable (hb : b.Homogeneous) (hk : k.Is1D kw o c) (hk' : k'.Is1D kw o d) (hkk : kk.Is2D kw o (fun i j => c i * d j))
    (hok : o < kw) (hkw : kw < 65536)
    (hi : input.Valid h) (hf : input.Shows h f) (ho : output.Valid h) (hst : storage.Valid h)
    (hc : output.CanBe input.width input.height) (hcs : storage.CanBe input.width input.height)
    (hs : input.Sep output input.width input.height) (hss : input.Sep storage input.width input.height) (hne : storage.buf ≠ output.buf)
    (hw : input.width + kw ≤ 2147483648) (hh : input.height + kw ≤ 2147483648)
    (hrx : b.Reach input.width o (kw - 1 - o)) (hry : b.Reach input.height o (kw - 1 - o)) :
    ∃ F, Makes (ConvolveImage.convolve z (fieldArith K) kk b input output h) h output input.width input.height F ∧
      MakesVia ((do
        let s ← ConvolveImage.horizontal z (fieldArith K) k b input storage
        ConvolveImage.vertical z (fieldArith K) k' b s output : M K Gray) h) h storage output input.width input.height F := by
  refine ⟨_, makes_convolve z b hkk hok hkw hi hf ho hc hs hw hh hrx hry, ?_⟩
  refine (makes_horizontal z b hk hok hi hf hst hcs hss hw hh hrx).next ho hne (fun s h1 sv sw sh sp ov hb' => ?_)
  have := makes_vertical z b hk' hok sv sp ov (by rw [sw, sh]; exact hc) (Or.inl hb') (by omega) (by omega) (by rw [sh]; exact hry)
  rw [sw, sh] at this
  refine this.congr (fun x y hx hy => ?_)
  simp only [ext_rowSum hb hx (by omega : 0 < input.height)]
  simp only [sumF_eq, Finset.mul_sum]
  exact Finset.sum_congr rfl (fun j _ => Finset.sum_congr rfl (fun i _ => by ring))

theorem wrapTo_wrapTo {n : Nat} (hn : 0 < n) (x a : Int) : wrapTo n ((wrapTo n x : Nat) + a) = wrapTo n (x + a) := by
  unfold wrapTo
  rw [Int.toNat_of_nonneg (Int.emod_nonneg _ (by omega)), Int.emod_add_emod]

/-- On a periodic picture two convolutions with kernels `c` and `d` are one with their product, horizontally and vertically. -/
theorem C92_compose {kw' o' : Nat} (hk : k.Is1D kw o c) (hk' : k'.Is1D kw' o' d)
    (hkk : kk.Is1D (kw + kw' - 1) (o + o') (kernelProduct kw kw' c d)) (hok : o < kw) (hok' : o' < kw')
    (hi : input.Valid h) (hf : input.Shows h f) (ho : output.Valid h) (hst : storage.Valid h)
    (hc : output.CanBe input.width input.height) (hcs : storage.CanBe input.width input.height)
    (hs : input.Sep output input.width input.height) (hss : input.Sep storage input.width input.height) (hne : storage.buf ≠ output.buf)
    (hw : input.width + kw + kw' ≤ 2147483648) (hh : input.height + kw + kw' ≤ 2147483648) :
    (o + o' ≤ input.width → kw + kw' - 2 - (o + o') ≤ input.width →
      ∃ F, Makes (ConvolveImage.horizontal z (fieldArith K) kk .wrap input output h) h output input.width input.height F ∧
        MakesVia ((do
          let s ← ConvolveImage.horizontal z (fieldArith K) k .wrap input storage
          ConvolveImage.horizontal z (fieldArith K) k' .wrap s output : M K Gray) h) h storage output input.width input.height F) ∧
    (o + o' ≤ input.height → kw + kw' - 2 - (o + o') ≤ input.height →
      ∃ F, Makes (ConvolveImage.vertical z (fieldArith K) kk .wrap input output h) h output input.width input.height F ∧
        MakesVia ((do
          let s ← ConvolveImage.vertical z (fieldArith K) k .wrap input storage
          ConvolveImage.vertical z (fieldArith K) k' .wrap s output : M K Gray) h) h storage output input.width input.height F) := by
  refine ⟨fun r0 r1 => ⟨_, makes_horizontal z .wrap hkk (by omega) hi hf ho hc hs (by omega) (by omega) ⟨by omega, by omega⟩, ?_⟩,
    fun r0 r1 => ⟨_, makes_vertical z .wrap hkk (by omega) hi hf ho hc hs (by omega) (by omega) ⟨by omega, by omega⟩, ?_⟩⟩
  · refine (makes_horizontal z .wrap hk hok hi hf hst hcs hss (by omega) (by omega) ⟨by omega, by omega⟩).next ho hne (fun s h1 sv sw sh sp ov hb' => ?_)
    have := makes_horizontal z .wrap hk' hok' sv sp ov (by rw [sw, sh]; exact hc) (Or.inl hb') (by omega) (by omega)
      (by rw [sw]; exact ⟨by omega, by omega⟩)
    rw [sw, sh] at this
    refine this.congr (fun x y hx hy => ?_)
    rw [← sumF_product kw kw' c d (fun k => (Border.wrap : Border K).ext input.width input.height f ((x : Int) + k - (o + o' : Nat)) y)]
    simp only [Border.ext, sumF_eq, Finset.mul_sum]
    rw [Finset.sum_comm]
    refine Finset.sum_congr rfl (fun i _ => Finset.sum_congr rfl (fun j _ => ?_))
    have e1 : wrapTo input.width (((wrapTo input.width ((x : Int) + j - o') : Nat) : Int) + i - o) =
        wrapTo input.width ((x : Int) + (i + j : Nat) - (o + o' : Nat)) := by
      rw [show ∀ a : Int, a + (i : Int) - o = a + ((i : Int) - o) from fun a => by ring, wrapTo_wrapTo (by omega)]
      congr 1; push_cast; ring
    have e2 : wrapTo input.height ((wrapTo input.height (y : Int) : Nat) : Int) = wrapTo input.height (y : Int) := by
      have := wrapTo_wrapTo (n := input.height) (by omega) (y : Int) 0
      simpa using this
    rw [e1, e2]; ring
  · refine (makes_vertical z .wrap hk hok hi hf hst hcs hss (by omega) (by omega) ⟨by omega, by omega⟩).next ho hne (fun s h1 sv sw sh sp ov hb' => ?_)
    have := makes_vertical z .wrap hk' hok' sv sp ov (by rw [sw, sh]; exact hc) (Or.inl hb') (by omega) (by omega)
      (by rw [sh]; exact ⟨by omega, by omega⟩)
    rw [sw, sh] at this
    refine this.congr (fun x y hx hy => ?_)
    rw [← sumF_product kw kw' c d (fun k => (Border.wrap : Border K).ext input.width input.height f x ((y : Int) + k - (o + o' : Nat)))]
    simp only [Border.ext, sumF_eq, Finset.mul_sum]
    rw [Finset.sum_comm]
    refine Finset.sum_congr rfl (fun i _ => Finset.sum_congr rfl (fun j _ => ?_))
    have e1 : wrapTo input.height (((wrapTo input.height ((y : Int) + j - o') : Nat) : Int) + i - o) =
        wrapTo input.height ((y : Int) + (i + j : Nat) - (o + o' : Nat)) := by
      rw [show ∀ a : Int, a + (i : Int) - o = a + ((i : Int) - o) from fun a => by ring, wrapTo_wrapTo (by omega)]
      congr 1; push_cast; ring
    have e2 : wrapTo input.width ((wrapTo input.width (x : Int) : Nat) : Int) = wrapTo input.width (x : Int) := by
      have := wrapTo_wrapTo (n := input.width) (by omega) (x : Int) 0
      simpa using this
    rw [e1, e2]; ring

end product
end

/-- The hypotheses hold: a 3 × 3 picture of rational numbers, the kernels `[1,2,3]` and `[-1,0,1]`, and their product. -/
example : ConvolveImage.convolve (V := ℚ) 0 (fieldArith ℚ) ⟨3, 1, ⟨[-1, -2, -3, 0, 0, 0, 1, 2, 3], 9, 0, true⟩⟩ .reflect
      ⟨0, 9, 3, 3, 0, 3, false⟩ ⟨1, 9, 3, 3, 0, 3, false⟩
      ⟨[some [5, 1, 4, 1, 0, 2, 7, 7, 9], some (List.replicate 9 0), some (List.replicate 9 0)]⟩ =
    .ok ⟨1, 9, 3, 3, 0, 3, false⟩
      ⟨[some [5, 1, 4, 1, 0, 2, 7, 7, 9], some [0, 0, 0, 28, 29, 34, 0, 0, 0], some (List.replicate 9 0)]⟩ ∧
    (do let s ← ConvolveImage.horizontal (V := ℚ) 0 (fieldArith ℚ) ⟨3, 1, ⟨[1, 2, 3], 3, 0, true⟩⟩ .reflect
          ⟨0, 9, 3, 3, 0, 3, false⟩ ⟨2, 9, 3, 3, 0, 3, false⟩
        ConvolveImage.vertical 0 (fieldArith ℚ) ⟨3, 1, ⟨[-1, 0, 1], 3, 0, true⟩⟩ .reflect s ⟨1, 9, 3, 3, 0, 3, false⟩ : M ℚ Gray)
      ⟨[some [5, 1, 4, 1, 0, 2, 7, 7, 9], some (List.replicate 9 0), some (List.replicate 9 0)]⟩ =
    .ok ⟨1, 9, 3, 3, 0, 3, false⟩
      ⟨[some [5, 1, 4, 1, 0, 2, 7, 7, 9], some [0, 0, 0, 28, 29, 34, 0, 0, 0], some [14, 19, 12, 2, 7, 4, 42, 48, 46]]⟩ := by
  decide +kernel

end Boof
