import Verif.Props.Kernel
/-
C78: choice of sigma and radius.  C79: changing the shape and the coefficients of a kernel.
-/
namespace Boof
open M
variable {V S : Type}

/-! ## C78 -/

section
variable {K : Type} [Field K] [LinearOrder K] [IsStrictOrderedRing K] [FloorRing K]

theorem spread_pos {order : Int} (ho : 0 ≤ order) : (0 : K) < 5 + (4/5) * (order : K) := by
  have : (0 : K) ≤ (order : K) := by exact_mod_cast ho
  linarith

/-- `sigmaForRadius(radius,order)`: the sigma for which the kernel of this radius, `2*radius+1` pixels, is `5 + 0.8*order`
sigmas wide.  It throws exactly if the radius is not positive. -/
theorem C78_sigma (radius : K) {order : Int} (ho : 0 ≤ order) (h : Heap V) :
    (radius ≤ 0 → FactoryKernel.sigmaForRadius radius order h = .throw h) ∧
    (0 < radius → ∃ s, FactoryKernel.sigmaForRadius radius order h = .ok s h ∧ 0 < s ∧
      s * (5 + (4/5) * (order : K)) = 2 * radius + 1) := by
  have hp := spread_pos (K := K) ho
  constructor
  · intro hr
    unfold FactoryKernel.sigmaForRadius
    rw [if_pos hr]; rfl
  · intro hr
    unfold FactoryKernel.sigmaForRadius
    rw [if_neg (not_le.mpr hr)]
    refine ⟨_, rfl, by positivity, ?_⟩
    rw [div_mul_cancel₀ _ hp.ne']
    ring

/-- `radiusForSigma(sigma,order)`: the smallest radius for which the kernel, `2*radius+1` pixels, is at least `5 + 0.8*order`
sigmas wide.  It throws exactly if sigma is not positive; the result has to be a 32-bit number. -/
theorem C78_radius {sigma : K} {order : Int} (ho : 0 ≤ order) (h : Heap V) :
    (sigma ≤ 0 → FactoryKernel.radiusForSigma sigma order h = .throw h) ∧
    (0 < sigma → (5 + (4/5) * (order : K)) * sigma ≤ 4294967295 →
      ∃ r : Int, FactoryKernel.radiusForSigma sigma order h = .ok r h ∧ 0 ≤ r ∧
        (5 + (4/5) * (order : K)) * sigma ≤ 2 * r + 1 ∧
        ∀ r' : Int, (5 + (4/5) * (order : K)) * sigma ≤ 2 * r' + 1 → r ≤ r') ∧
    (4294967295 < (5 + (4/5) * (order : K)) * sigma → FactoryKernel.radiusForSigma sigma order h = .ub) := by
  have hp := spread_pos (K := K) ho
  refine ⟨?_, ?_, ?_⟩
  · intro hr
    unfold FactoryKernel.radiusForSigma
    rw [if_pos hr]; rfl
  · intro hs hb
    have hm := mul_pos hp hs
    unfold FactoryKernel.radiusForSigma M.toInt
    rw [if_neg (not_le.mpr hs)]
    generalize (5 + (4/5) * (order : K)) = A at *
    have h0 : (0 : Int) ≤ ⌈(A * sigma - 1) / 2⌉ := by
      have : (-1 : Int) < ⌈(A * sigma - 1) / 2⌉ := by rw [Int.lt_ceil]; push_cast; linarith
      omega
    have h1 : ⌈(A * sigma - 1) / 2⌉ ≤ (2147483647 : Int) := by rw [Int.ceil_le]; push_cast; linarith
    have ht : truncK ((⌈(A * sigma - 1) / 2⌉ : Int) : K) = ⌈(A * sigma - 1) / 2⌉ := by
      rw [truncK_nonneg (by exact_mod_cast h0), Int.floor_intCast]
    have hle := Int.le_ceil ((A * sigma - 1) / 2)
    refine ⟨⌈(A * sigma - 1) / 2⌉, ?_, h0, by linarith, fun r' hr' => ?_⟩
    · rw [ht, if_pos ⟨by show -2147483648 ≤ _; omega, by show _ ≤ 2147483647; omega⟩]
      rfl
    · rw [Int.ceil_le]; linarith
  · intro hb
    have hs : 0 < sigma := by
      by_contra hc
      have := mul_nonpos_of_nonneg_of_nonpos hp.le (not_lt.mp hc)
      linarith
    unfold FactoryKernel.radiusForSigma M.toInt
    rw [if_neg (not_le.mpr hs)]
    generalize (5 + (4/5) * (order : K)) = A at *
    have h1 : (2147483647 : Int) < ⌈(A * sigma - 1) / 2⌉ := by rw [Int.lt_ceil]; push_cast; linarith
    have h0 : (0 : Int) ≤ ⌈(A * sigma - 1) / 2⌉ := by omega
    have ht : truncK ((⌈(A * sigma - 1) / 2⌉ : Int) : K) = ⌈(A * sigma - 1) / 2⌉ := by
      rw [truncK_nonneg (by exact_mod_cast h0), Int.floor_intCast]
    rw [ht, if_neg (fun hc => by have : _ ≤ (2147483647 : Int) := hc.2; omega)]
    rfl

/-- The two choices are inverse: the radius chosen for the sigma of a radius is that radius. -/
theorem C78_inverse {r : Int} (hr : 0 < r) (hr2 : r < 2147483648) {order : Int} (ho : 0 ≤ order) (h : Heap V) :
    (do let s ← FactoryKernel.sigmaForRadius (r : K) order
        FactoryKernel.radiusForSigma s order : M V Int) h = .ok r h := by
  have hk : (0 : K) < (r : K) := by exact_mod_cast hr
  obtain ⟨s, e1, s1, s2⟩ := (C78_sigma (r : K) ho h).2 hk
  have hr2' : (r : K) ≤ 2147483647 := by
    have : r ≤ 2147483647 := by omega
    exact_mod_cast this
  obtain ⟨r', e2, q0, q1, q2⟩ := (C78_radius (V := V) (sigma := s) ho h).2.1 s1 (by rw [mul_comm, s2]; linarith)
  rw [mul_comm, s2] at q1
  have a : r ≤ r' := by
    have : (r : K) ≤ r' := by linarith
    exact_mod_cast this
  have b := q2 r (by rw [mul_comm, s2])
  have : r' = r := by omega
  subst this
  exact (M.bind_ok e1).trans e2

/-- Radius 3 for a first derivative. -/
example (h : Heap V) : (FactoryKernel.sigmaForRadius ((3 : Int) : ℚ) 1 >>= fun s => FactoryKernel.radiusForSigma s 1 : M V Int) h = .ok 3 h :=
  C78_inverse (by decide) (by decide) (by decide) h

end

/-! ## C79 -/

/-- A kernel whose coefficients are in an array of its own. -/
def Kernel.Owns (k : Kernel S) : Prop := k.data.Ok ∧ k.data.canResize = true

/-- `Kernel1D::reshape(width,offset)` gives the kernel this width, offset and number of coefficients; coefficients present before
and after keep their value.  The offset is not checked. -/
theorem C79_reshape1D (E : GrowArray.Elem S) {k : Kernel S} (hk : k.Owns) (w o : Nat) (h : Heap V) :
    ∃ k', Kernel1D.reshape E w o k h = .ok k' h ∧ k'.Owns ∧ k'.width = w ∧ k'.offset = o ∧ k'.data.size = w ∧
      ∀ i, i < k.data.size → i < w → k'.data.data[i]? = k.data.data[i]? := by
  obtain ⟨a, e, h1, h2, -, h3, -, h4, -⟩ := C11_resize_partial E hk.1 hk.2 w
  refine ⟨⟨w, o, a⟩, (M.bind_ok (ofGrow_ok e h)).trans rfl, ⟨h1, h3⟩, rfl, rfl, h2, fun i hi hw => ?_⟩
  have := h4 i hi hw
  unfold GrowArray.elems at this
  rw [List.getElem?_take, List.getElem?_take, if_pos (by omega), if_pos hi] at this
  exact this

/-- A kernel with these coefficients, reshaped to a smaller one, is the kernel of the first coefficients. -/
theorem C79_shrink1D (E : GrowArray.Elem S) {k : Kernel S} (hk : k.Owns) {w o : Nat} {c : Nat → S} (hc : k.Is1D w o c)
    {w' : Nat} (hw : w' ≤ w) (o' : Nat) (h : Heap V) :
    ∃ k', Kernel1D.reshape E w' o' k h = .ok k' h ∧ k'.Owns ∧ k'.Is1D w' o' c := by
  obtain ⟨k', e, h1, h2, h3, h4, h5⟩ := C79_reshape1D E hk w' o' h
  exact ⟨k', e, h1, h2, h3, h4, fun i hi => by rw [h5 i (by rw [hc.size]; omega) hi, hc.coef i (by omega)]⟩

/-- `Kernel2D::reshape(width,offset)` of less than 2^32 coefficients keeps the coefficients in the order in which they are stored.
MISSING for the full property: a coefficient does not stay in its row and column, see `C79_reshape2D_refuted`. -/
theorem C79_reshape2D_partial (E : GrowArray.Elem S) {k : Kernel S} (hk : k.Owns) {w : Nat} (hw : w * w < P32) (o : Nat) (h : Heap V) :
    ∃ k', Kernel2D.reshape E w o k h = .ok k' h ∧ k'.Owns ∧ k'.width = w ∧ k'.offset = o ∧ k'.data.size = w * w ∧
      ∀ i, i < k.data.size → i < w * w → k'.data.data[i]? = k.data.data[i]? := by
  obtain ⟨a, e, h1, h2, -, h3, -, h4, -⟩ := C11_resize_partial E hk.1 hk.2 (wrap32 (w * w))
  rw [wrap32_of_lt hw] at h2 h4
  refine ⟨⟨w, o, a⟩, (M.bind_ok (ofGrow_ok e h)).trans rfl, ⟨h1, h3⟩, rfl, rfl, h2, fun i hi hw => ?_⟩
  have := h4 i hi hw
  unfold GrowArray.elems at this
  rw [List.getElem?_take, List.getElem?_take, if_pos (by omega), if_pos hi] at this
  exact this

/-- So the first row is kept, and a kernel reshaped to its own width keeps all coefficients. -/
theorem C79_reshape2D_same_partial (E : GrowArray.Elem S) {k : Kernel S} (hk : k.Owns) {w o : Nat} {c : Nat → Nat → S} (hc : k.Is2D w o c)
    (hw : w * w < P32) (o' : Nat) (h : Heap V) :
    ∃ k', Kernel2D.reshape E w o' k h = .ok k' h ∧ k'.Owns ∧ k'.Is2D w o' c := by
  obtain ⟨k', e, h1, h2, h3, h4, h5⟩ := C79_reshape2D_partial E hk hw o' h
  refine ⟨k', e, h1, h2, h3, h4, fun x y hx hy => ?_⟩
  have : y * w + x < w * w := by
    have := Nat.mul_le_mul_right w (show y + 1 ≤ w from hy)
    rw [Nat.add_mul] at this; omega
  rw [h5 _ (by rw [hc.size]; exact this) this, hc.coef x y hx hy]

/-- Reshaping the kernel `1 2 3 / 4 5 6 / 7 8 9` to two columns gives `1 2 / 3 4`: the coefficient in the first column of the second
row was 4 and becomes 3. -/
theorem C79_reshape2D_refuted (junk : Nat → Int) (h : Heap V) :
    (⟨3, 1, ⟨[1, 2, 3, 4, 5, 6, 7, 8, 9], 9, 0, true⟩⟩ : Kernel Int).Is2D 3 1 (fun x y => 3 * y + x + 1) ∧
    ∃ k', Kernel2D.reshape (intElem S32 junk) 2 1 (⟨3, 1, ⟨[1, 2, 3, 4, 5, 6, 7, 8, 9], 9, 0, true⟩⟩ : Kernel Int) h = .ok k' h ∧
      (Kernel2D.at' k' 0 1 : M V Int) h = .ok 3 h := by
  refine ⟨⟨rfl, rfl, rfl, fun x y hx hy => ?_⟩, _, rfl, rfl⟩
  have : ∀ x : Nat, x < 3 → ∀ y : Nat, y < 3 → ([1, 2, 3, 4, 5, 6, 7, 8, 9] : List Int)[y * 3 + x]? = some (3 * (y : Int) + x + 1) := by decide
  exact this x hx y hy

/-- Filling with random numbers: coefficient `i` is the `i`-th number drawn, so that all are between the limits of the
distribution; shape and offset stay. -/
theorem C79_fill1D {k : Kernel S} {w o : Nat} {c : Nat → S} (hk : k.Is1D w o c) (draw : Nat → S) (h : Heap V) :
    ∃ k', KernelOps.fillUniform1D k draw h = .ok k' h ∧ k'.Is1D w o draw ∧
      ∀ p : S → Prop, (∀ i, p (draw i)) → ∀ i, i < w → ∃ s, k'.data.data[i]? = some s ∧ p s := by
  have hl := hk.length
  obtain ⟨k', e, f⟩ := (Kernel.Filled.refl k draw).loop (n := w) (h := h) (body := fun i k => k.put i (draw i)) (R := fun i j => j = i)
    (fun i k1 hi hf => hf.put (by omega) rfl h)
  have hc : ∀ i, i < w → k'.data.data[i]? = some (draw i) := fun i hi => f.yes i (Or.inr ⟨i, hi, rfl⟩) (by omega)
  refine ⟨k', by unfold KernelOps.fillUniform1D; rw [hk.width]; exact e, ⟨by rw [f.width, hk.width], by rw [f.offset, hk.offset],
    by rw [f.size, hk.size], hc⟩, fun p hp i hi => ⟨_, hc i hi, hp i⟩⟩

/-- The same for 2D kernels of less than 2^32 coefficients. -/
theorem C79_fill2D_partial {k : Kernel S} {w o : Nat} {c : Nat → Nat → S} (hk : k.Is2D w o c) (hw : w * w < P32) (draw : Nat → S)
    (h : Heap V) :
    ∃ k', KernelOps.fillUniform2D k draw h = .ok k' h ∧ k'.Is2D w o (fun x y => draw (y * w + x)) := by
  have hl := hk.length
  obtain ⟨k', e, f⟩ := (Kernel.Filled.refl k draw).loop (n := w * w) (h := h) (body := fun i k => k.put i (draw i)) (R := fun i j => j = i)
    (fun i k1 hi hf => hf.put (by omega) rfl h)
  have hc : ∀ i, i < w * w → k'.data.data[i]? = some (draw i) := fun i hi => f.yes i (Or.inr ⟨i, hi, rfl⟩) (by omega)
  refine ⟨k', by unfold KernelOps.fillUniform2D; rw [hk.width, wrap32_of_lt hw]; exact e, ⟨by rw [f.width, hk.width], by rw [f.offset, hk.offset],
    by rw [f.size, hk.size], fun x y hx hy => hc _ (idx2_lt hx hy)⟩⟩

/-- Kernels which the hypotheses allow: every new kernel. -/
theorem C79_new1D (E : GrowArray.Elem S) (hz : E.ms E.zero = E.zero) {w o : Nat} (ho : o < w) (h : Heap V) :
    ∃ k, Kernel1D.new E w o h = .ok k h ∧ k.Owns ∧ k.Is1D w o (fun _ => E.zero) := by
  obtain ⟨k, e, hk⟩ := (C42_new1D E hz w o h).2 ho
  refine ⟨k, e, ?_, hk⟩
  obtain ⟨a0, a, e0, e1, e2, e3, -, e4, -⟩ := fresh_array E hz w
  unfold Kernel1D.new at e
  rw [if_neg (by omega)] at e
  rw [M.bind_ok (ofGrow_ok e0 h), M.bind_ok (ofGrow_ok e1 h)] at e
  cases e
  exact ⟨by unfold GrowArray.Ok; show a.size ≤ a.data.length; omega, e4⟩

example (h : Heap V) : ∃ k, Kernel1D.new (intElem S32 (fun _ => 9)) 3 1 h = .ok k h ∧ k.Owns ∧ k.Is1D 3 1 (fun _ => 0) :=
  C79_new1D _ (memsetInt_zero S32) (by decide) h

/-- A kernel made without arguments has width 0 (its array has ten zeros, which `sum` and the extrema look at), and reshaped it is the kernel of this width whose coefficients are zero, whatever
the offset. -/
theorem C79_empty1D (E : GrowArray.Elem S) (hz : E.ms E.zero = E.zero) (w o : Nat) (h : Heap V) :
    ∃ k0 k, Kernel1D.newEmpty E h = .ok k0 h ∧ k0.Owns ∧ k0.data.size = 10 ∧ k0.width = 0 ∧ k0.offset = 0 ∧
      Kernel1D.reshape E w o k0 h = .ok k h ∧ k.Owns ∧ k.Is1D w o (fun _ => E.zero) := by
  obtain ⟨a0, a, e0, e1, e2, e3, e4, e5, e6, e7⟩ := fresh_array E hz w
  have hs : a0.size = 10 := by
    have : GrowArray.newDefault E = .ok () ⟨List.replicate 10 E.zero, 10, E.zero, true⟩ := by
      unfold GrowArray.newDefault GrowArray.new GrowArray.fill
      simp [hz]
    rw [this] at e0
    cases e0; rfl
  refine ⟨⟨0, 0, a0⟩, ⟨w, o, a⟩, (M.bind_ok (ofGrow_ok e0 h)).trans rfl, ⟨e6, e7⟩, hs, rfl, rfl,
    (M.bind_ok (ofGrow_ok e1 h)).trans rfl, ⟨by unfold GrowArray.Ok; show a.size ≤ a.data.length; omega, e5⟩,
    ⟨rfl, rfl, e2, fun i hi => e4 i (by omega)⟩⟩

/-- The same for two dimensions. -/
theorem C79_empty2D_partial (E : GrowArray.Elem S) (hz : E.ms E.zero = E.zero) {w : Nat} (hw : w * w < P32) (o : Nat) (h : Heap V) :
    ∃ k0 k, Kernel2D.newEmpty E h = .ok k0 h ∧ k0.Owns ∧ k0.width = 0 ∧ k0.offset = 0 ∧
      Kernel2D.reshape E w o k0 h = .ok k h ∧ k.Owns ∧ k.Is2D w o (fun _ _ => E.zero) := by
  obtain ⟨a0, a, e0, e1, e2, e3, e4, e5, e6, e7⟩ := fresh_array E hz (w * w)
  refine ⟨⟨0, 0, a0⟩, ⟨w, o, a⟩, (M.bind_ok (ofGrow_ok e0 h)).trans rfl, ⟨e6, e7⟩, rfl, rfl,
    (M.bind_ok (ofGrow_ok (by rw [wrap32_of_lt hw]; exact e1) h)).trans rfl, ⟨by unfold GrowArray.Ok; show a.size ≤ a.data.length; omega, e5⟩,
    ⟨rfl, rfl, e2, fun x y hx hy => e4 _ (by have := idx2_lt hx hy; omega)⟩⟩

example (h : Heap V) : ∃ k0 k, Kernel2D.newEmpty (intElem S32 (fun _ => 9)) h = .ok k0 h ∧ k0.Owns ∧ k0.width = 0 ∧ k0.offset = 0 ∧
    Kernel2D.reshape (intElem S32 (fun _ => 9)) 4 1 k0 h = .ok k h ∧ k.Owns ∧ k.Is2D 4 1 (fun _ _ => 0) :=
  C79_empty2D_partial _ (memsetInt_zero S32) (by decide) 1 h

end Boof
