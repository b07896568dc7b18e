import Verif.Spec.Algebra
import Verif.Props.Algebra
import Verif.Proofs.Moved
/-
C103: convolutions move with the picture.

* On a picture which wraps around, moving the picture moves the result, for kernels of every shape and every arithmetic (`C103_turned_*`).
* The horizontal convolution of a picture with rows and columns exchanged is the vertical convolution of the picture with rows and columns exchanged
  (`C103_transposed`), and a two-dimensional kernel with rows and columns exchanged gives the result with rows and columns exchanged
  (`C103_transposed_convolve`, exact arithmetic).
* A mirrored picture with a mirrored kernel gives the mirrored result, at every border (`C103_mirrored_*`).
* On a picture which wraps around, the pixels of the result sum to the sum of the coefficients times the sum of the pixels (`C103_total_*`).
-/
namespace Boof

section any
variable {V S : Type} {h₁ h₂ h₁' h₂' : Heap V} {i₁ i₂ u₁ u₂ o₁ o₂ : Gray} {f : Nat → Nat → V} {dx dy w ht kw o : Nat} {A : Arith V S}
  {k : Kernel S} {z z' : V}

/-- What a horizontal convolution writes at each pixel. -/
theorem row_call {b : Border V} {c : Nat → S} (hk : k.Is1D kw o c) (hok : o < kw) (c₁ : ConvolveCall h₁ i₁ u₁ f kw)
    (hb : b.Reach i₁.width o (kw - 1 - o))
    (d₁ : ∀ x y, x < i₁.width → y < i₁.height → ((rowAt A kw o c (b.ext i₁.width i₁.height f) x y).bind A.out).isSome)
    (r₁ : ConvolveImage.horizontal z A k b i₁ u₁ h₁ = .ok o₁ h₁') {x y : Nat} (hx : x < i₁.width) (hy : y < i₁.height) :
    h₁'.px o₁ x y = (rowAt A kw o c (b.ext i₁.width i₁.height f) x y).bind A.out := by
  have b1 := c₁.heightBound
  obtain ⟨_, _, e1, p1, -⟩ := C47_horizontal_partial z A b c₁.valid c₁.outputValid c₁.shows c₁.outputShape c₁.outputApart hk hok c₁.widthBound
    (by omega) hb (fun x y hx hy => eq_some_getD (z := z) (d₁ x y hx hy))
  rw [r₁] at e1; cases e1
  exact (p1.pix x y hx hy).trans (eq_some_getD (z := z) (d₁ x y hx hy)).symm

/-- What a vertical convolution writes at each pixel. -/
theorem col_call {b : Border V} {c : Nat → S} (hk : k.Is1D kw o c) (hok : o < kw) (c₁ : ConvolveCall h₁ i₁ u₁ f kw)
    (hb : b.Reach i₁.height o (kw - 1 - o))
    (d₁ : ∀ x y, x < i₁.width → y < i₁.height → ((colAt A kw o c (b.ext i₁.width i₁.height f) x y).bind A.out).isSome)
    (r₁ : ConvolveImage.vertical z A k b i₁ u₁ h₁ = .ok o₁ h₁') {x y : Nat} (hx : x < i₁.width) (hy : y < i₁.height) :
    h₁'.px o₁ x y = (colAt A kw o c (b.ext i₁.width i₁.height f) x y).bind A.out := by
  have b1 := c₁.widthBound
  obtain ⟨_, _, e1, p1, -⟩ := C48_vertical_partial z A b c₁.valid c₁.outputValid c₁.shows c₁.outputShape c₁.outputApart hk hok c₁.heightBound
    (by omega) hb (fun x y hx hy => eq_some_getD (z := z) (d₁ x y hx hy))
  rw [r₁] at e1; cases e1
  exact (p1.pix x y hx hy).trans (eq_some_getD (z := z) (d₁ x y hx hy)).symm

/-- What a two-dimensional convolution writes at each pixel. -/
theorem box_call {b : Border V} {c : Nat → Nat → S} (hk : k.Is2D kw o c) (hok : o < kw) (hkw : kw < 65536) (c₁ : ConvolveCall h₁ i₁ u₁ f kw)
    (hb : b.Reach i₁.width o (kw - 1 - o) ∧ b.Reach i₁.height o (kw - 1 - o))
    (d₁ : ∀ x y, x < i₁.width → y < i₁.height → ((boxAt A kw o c (b.ext i₁.width i₁.height f) x y).bind A.out).isSome)
    (r₁ : ConvolveImage.convolve z A k b i₁ u₁ h₁ = .ok o₁ h₁') {x y : Nat} (hx : x < i₁.width) (hy : y < i₁.height) :
    h₁'.px o₁ x y = (boxAt A kw o c (b.ext i₁.width i₁.height f) x y).bind A.out := by
  obtain ⟨_, _, e1, p1, -⟩ := C49_convolve_partial z A b c₁.valid c₁.outputValid c₁.shows c₁.outputShape c₁.outputApart hk hok hkw c₁.widthBound
    c₁.heightBound hb.1 hb.2 (fun x y hx hy => eq_some_getD (z := z) (d₁ x y hx hy))
  rw [r₁] at e1; cases e1
  exact (p1.pix x y hx hy).trans (eq_some_getD (z := z) (d₁ x y hx hy)).symm

/-! ## Turning -/

theorem rowAt_turned (c : Nat → S) (hw : 0 < w) (hh : 0 < ht) (x y : Nat) :
    rowAt A kw o c ((Border.wrap : Border V).ext w ht (turned dx dy w ht f)) x y =
    rowAt A kw o c ((Border.wrap : Border V).ext w ht f) ((x + dx) % w) ((y + dy) % ht) := by
  unfold rowAt
  refine foldO_same fun k _ s => ?_
  have e := ext_wrap_mod (w := w) (ht := ht) (a := dx) (b := dy) (x := x) (y := y) f ((k : Int) - o) 0
  rw [Int.add_zero, Int.add_zero] at e
  rw [ext_turned hw hh, show ((x + dx) % w : Nat) + (k : Int) - o = ((x + dx) % w : Nat) + ((k : Int) - o) by omega, e]
  congr 2; omega

theorem colAt_turned (c : Nat → S) (hw : 0 < w) (hh : 0 < ht) (x y : Nat) :
    colAt A kw o c ((Border.wrap : Border V).ext w ht (turned dx dy w ht f)) x y =
    colAt A kw o c ((Border.wrap : Border V).ext w ht f) ((x + dx) % w) ((y + dy) % ht) := by
  unfold colAt
  refine foldO_same fun k _ s => ?_
  have e := ext_wrap_mod (w := w) (ht := ht) (a := dx) (b := dy) (x := x) (y := y) f 0 ((k : Int) - o)
  rw [Int.add_zero, Int.add_zero] at e
  rw [ext_turned hw hh, show ((y + dy) % ht : Nat) + (k : Int) - o = ((y + dy) % ht : Nat) + ((k : Int) - o) by omega, e]
  congr 2; omega

theorem boxAt_turned (c : Nat → Nat → S) (hw : 0 < w) (hh : 0 < ht) (x y : Nat) :
    boxAt A kw o c ((Border.wrap : Border V).ext w ht (turned dx dy w ht f)) x y =
    boxAt A kw o c ((Border.wrap : Border V).ext w ht f) ((x + dx) % w) ((y + dy) % ht) := by
  unfold boxAt
  refine foldO_same fun j _ s => foldO_same fun i _ s => ?_
  have e := ext_wrap_mod (w := w) (ht := ht) (a := dx) (b := dy) (x := x) (y := y) f ((i : Int) - o) ((j : Int) - o)
  rw [ext_turned hw hh, show ((x + dx) % w : Nat) + (i : Int) - o = ((x + dx) % w : Nat) + ((i : Int) - o) by omega,
    show ((y + dy) % ht : Nat) + (j : Int) - o = ((y + dy) % ht : Nat) + ((j : Int) - o) by omega, e]
  congr 2 <;> omega

/-- Moving a picture which wraps around moves its horizontal convolution. -/
theorem C103_turned_horizontal {c : Nat → S} (hk : k.Is1D kw o c) (hok : o < kw)
    (c₁ : ConvolveCall h₁ i₁ u₁ f kw) (c₂ : ConvolveCall h₂ i₂ u₂ (turned dx dy w ht f) kw)
    (w1 : i₁.width = w) (t1 : i₁.height = ht) (w2 : i₂.width = w) (t2 : i₂.height = ht) (hb : (Border.wrap : Border V).Reach w o (kw - 1 - o))
    (d₁ : ∀ x y, x < w → y < ht → ((rowAt A kw o c ((Border.wrap : Border V).ext w ht f) x y).bind A.out).isSome)
    (r₁ : ConvolveImage.horizontal z A k .wrap i₁ u₁ h₁ = .ok o₁ h₁') (r₂ : ConvolveImage.horizontal z' A k .wrap i₂ u₂ h₂ = .ok o₂ h₂')
    {x y : Nat} (hx : x < w) (hy : y < ht) : h₂'.px o₂ x y = h₁'.px o₁ ((x + dx) % w) ((y + dy) % ht) := by
  subst w1 t1
  have hw : 0 < i₁.width := by omega
  have hh : 0 < i₁.height := by omega
  have e1 := row_call hk hok c₁ hb d₁ r₁ (Nat.mod_lt (x + dx) hw) (Nat.mod_lt (y + dy) hh)
  have e2 := row_call (x := x) (y := y) hk hok c₂ (by rw [w2]; exact hb) (by
    intro x y hx hy
    rw [w2, t2, rowAt_turned c hw hh]
    exact d₁ _ _ (Nat.mod_lt _ hw) (Nat.mod_lt _ hh)) r₂ (by omega) (by omega)
  rw [e1, e2, w2, t2, rowAt_turned c hw hh]

/-- Moving a picture which wraps around moves its vertical convolution. -/
theorem C103_turned_vertical {c : Nat → S} (hk : k.Is1D kw o c) (hok : o < kw)
    (c₁ : ConvolveCall h₁ i₁ u₁ f kw) (c₂ : ConvolveCall h₂ i₂ u₂ (turned dx dy w ht f) kw)
    (w1 : i₁.width = w) (t1 : i₁.height = ht) (w2 : i₂.width = w) (t2 : i₂.height = ht) (hb : (Border.wrap : Border V).Reach ht o (kw - 1 - o))
    (d₁ : ∀ x y, x < w → y < ht → ((colAt A kw o c ((Border.wrap : Border V).ext w ht f) x y).bind A.out).isSome)
    (r₁ : ConvolveImage.vertical z A k .wrap i₁ u₁ h₁ = .ok o₁ h₁') (r₂ : ConvolveImage.vertical z' A k .wrap i₂ u₂ h₂ = .ok o₂ h₂')
    {x y : Nat} (hx : x < w) (hy : y < ht) : h₂'.px o₂ x y = h₁'.px o₁ ((x + dx) % w) ((y + dy) % ht) := by
  subst w1 t1
  have hw : 0 < i₁.width := by omega
  have hh : 0 < i₁.height := by omega
  have e1 := col_call hk hok c₁ hb d₁ r₁ (Nat.mod_lt (x + dx) hw) (Nat.mod_lt (y + dy) hh)
  have e2 := col_call (x := x) (y := y) hk hok c₂ (by rw [t2]; exact hb) (by
    intro x y hx hy
    rw [w2, t2, colAt_turned c hw hh]
    exact d₁ _ _ (Nat.mod_lt _ hw) (Nat.mod_lt _ hh)) r₂ (by omega) (by omega)
  rw [e1, e2, w2, t2, colAt_turned c hw hh]

/-- Moving a picture which wraps around moves its two-dimensional convolution. -/
theorem C103_turned_convolve {c : Nat → Nat → S} (hk : k.Is2D kw o c) (hok : o < kw) (hkw : kw < 65536)
    (c₁ : ConvolveCall h₁ i₁ u₁ f kw) (c₂ : ConvolveCall h₂ i₂ u₂ (turned dx dy w ht f) kw)
    (w1 : i₁.width = w) (t1 : i₁.height = ht) (w2 : i₂.width = w) (t2 : i₂.height = ht)
    (hb : (Border.wrap : Border V).Reach w o (kw - 1 - o) ∧ (Border.wrap : Border V).Reach ht o (kw - 1 - o))
    (d₁ : ∀ x y, x < w → y < ht → ((boxAt A kw o c ((Border.wrap : Border V).ext w ht f) x y).bind A.out).isSome)
    (r₁ : ConvolveImage.convolve z A k .wrap i₁ u₁ h₁ = .ok o₁ h₁') (r₂ : ConvolveImage.convolve z' A k .wrap i₂ u₂ h₂ = .ok o₂ h₂')
    {x y : Nat} (hx : x < w) (hy : y < ht) : h₂'.px o₂ x y = h₁'.px o₁ ((x + dx) % w) ((y + dy) % ht) := by
  subst w1 t1
  have hw : 0 < i₁.width := by omega
  have hh : 0 < i₁.height := by omega
  have e1 := box_call hk hok hkw c₁ hb d₁ r₁ (Nat.mod_lt (x + dx) hw) (Nat.mod_lt (y + dy) hh)
  have e2 := box_call (x := x) (y := y) hk hok hkw c₂ (by rw [w2, t2]; exact hb) (by
    intro x y hx hy
    rw [w2, t2, boxAt_turned c hw hh]
    exact d₁ _ _ (Nat.mod_lt _ hw) (Nat.mod_lt _ hh)) r₂ (by omega) (by omega)
  rw [e1, e2, w2, t2, boxAt_turned c hw hh]

/-! ## Transposing -/

/-- The horizontal convolution of the picture with rows and columns exchanged is the vertical convolution of the picture with rows and columns
exchanged. -/
theorem C103_transposed {b : Border V} {c : Nat → S} (hk : k.Is1D kw o c) (hok : o < kw)
    (c₁ : ConvolveCall h₁ i₁ u₁ f kw) (c₂ : ConvolveCall h₂ i₂ u₂ (transposed f) kw) (w2 : i₂.width = i₁.height) (t2 : i₂.height = i₁.width)
    (hb : b.Reach i₁.height o (kw - 1 - o))
    (d₁ : ∀ x y, x < i₁.width → y < i₁.height → ((colAt A kw o c (b.ext i₁.width i₁.height f) x y).bind A.out).isSome)
    (r₁ : ConvolveImage.vertical z A k b i₁ u₁ h₁ = .ok o₁ h₁') (r₂ : ConvolveImage.horizontal z' A k b i₂ u₂ h₂ = .ok o₂ h₂')
    {x y : Nat} (hx : x < i₁.width) (hy : y < i₁.height) : h₂'.px o₂ y x = h₁'.px o₁ x y := by
  have key : ∀ x y : Nat, rowAt A kw o c (b.ext i₁.height i₁.width (transposed f)) y x = colAt A kw o c (b.ext i₁.width i₁.height f) x y := by
    intro x y
    unfold rowAt colAt
    refine foldO_same fun k _ s => ?_
    rw [ext_transposed]
  have e1 := col_call hk hok c₁ hb d₁ r₁ hx hy
  have e2 := row_call (x := y) (y := x) hk hok c₂ (by rw [w2]; exact hb) (by
    intro x y hx hy
    rw [w2, t2, key]
    exact d₁ _ _ (by omega) (by omega)) r₂ (by omega) (by omega)
  rw [e1, e2, w2, t2, key]

end any

/-! ## Sums of mirrored pictures -/

theorem sumF_row_mirrored {V S T : Type} [AddCommMonoid T] (G : S → V → T) (b : Border V) {c : Nat → S} {f : Nat → Nat → V} {w ht kw o x y : Nat}
    {a : Bool} (hok : o < kw) (hx : x < w) (hy : y < ht) :
    sumF kw (fun i => G (c (kw - 1 - i)) (b.ext w ht (mirrored true a w ht f) ((x : Int) + i - (kw - 1 - o : Nat)) y)) =
    sumF kw (fun i => G (c i) (b.ext w ht f ((mirrorIf true w x : Nat) + (i : Int) - o) (mirrorIf a ht y : Nat))) := by
  rw [← sumF_mirror kw]
  refine sumF_same fun i hi => ?_
  rw [ext_mirrored b (by omega) (by omega), show kw - 1 - (kw - 1 - i) = i by omega]
  congr 2
  · simp only [flipIf, mirrorIf, if_true]; omega
  · unfold flipIf mirrorIf
    cases a
    · rfl
    · simp only [if_true]; omega

theorem sumF_col_mirrored {V S T : Type} [AddCommMonoid T] (G : S → V → T) (b : Border V) {c : Nat → S} {f : Nat → Nat → V} {w ht kw o x y : Nat}
    {a : Bool} (hok : o < kw) (hx : x < w) (hy : y < ht) :
    sumF kw (fun i => G (c (kw - 1 - i)) (b.ext w ht (mirrored a true w ht f) x ((y : Int) + i - (kw - 1 - o : Nat)))) =
    sumF kw (fun i => G (c i) (b.ext w ht f (mirrorIf a w x : Nat) ((mirrorIf true ht y : Nat) + (i : Int) - o))) := by
  rw [← sumF_mirror kw]
  refine sumF_same fun i hi => ?_
  rw [ext_mirrored b (by omega) (by omega), show kw - 1 - (kw - 1 - i) = i by omega]
  congr 2
  · unfold flipIf mirrorIf
    cases a
    · rfl
    · simp only [if_true]; omega
  · simp only [flipIf, mirrorIf, if_true]; omega

theorem sumF_box_mirrored {V S T : Type} [AddCommMonoid T] (G : S → V → T) (b : Border V) {c : Nat → Nat → S} {f : Nat → Nat → V}
    {w ht kw o x y : Nat} (hok : o < kw) (hx : x < w) (hy : y < ht) :
    sumF kw (fun j => sumF kw (fun i => G (c (kw - 1 - i) (kw - 1 - j))
      (b.ext w ht (mirrored true true w ht f) ((x : Int) + i - (kw - 1 - o : Nat)) ((y : Int) + j - (kw - 1 - o : Nat))))) =
    sumF kw (fun j => sumF kw (fun i => G (c i j) (b.ext w ht f ((w - 1 - x : Nat) + (i : Int) - o) ((ht - 1 - y : Nat) + (j : Int) - o)))) := by
  rw [← sumF_mirror kw]
  refine sumF_same fun j hj => ?_
  beta_reduce
  rw [← sumF_mirror kw]
  refine sumF_same fun i hi => ?_
  rw [ext_mirrored b (by omega) (by omega), show kw - 1 - (kw - 1 - i) = i by omega, show kw - 1 - (kw - 1 - j) = j by omega]
  congr 2
  · simp only [flipIf, if_true]; omega
  · simp only [flipIf, if_true]; omega

/-! ## Exact arithmetic -/

section field
variable {K : Type} [Field K] [DecidableEq K] {h₁ h₂ h₁' h₂' : Heap K} {i₁ i₂ u₁ u₂ o₁ o₂ : Gray} {f : Nat → Nat → K} {kw o : Nat}
  {k k' : Kernel K} {b : Border K} {z z' : K}

theorem C103_transposed_convolve {c : Nat → Nat → K} (hk : k.Is2D kw o c) (hk' : k'.Is2D kw o (fun i j => c j i)) (hok : o < kw) (hkw : kw < 65536)
    (c₁ : ConvolveCall h₁ i₁ u₁ f kw) (c₂ : ConvolveCall h₂ i₂ u₂ (transposed f) kw) (w2 : i₂.width = i₁.height) (t2 : i₂.height = i₁.width)
    (hb : b.Reach i₁.width o (kw - 1 - o) ∧ b.Reach i₁.height o (kw - 1 - o))
    (r₁ : ConvolveImage.convolve z (fieldArith K) k b i₁ u₁ h₁ = .ok o₁ h₁')
    (r₂ : ConvolveImage.convolve z' (fieldArith K) k' b i₂ u₂ h₂ = .ok o₂ h₂')
    {x y : Nat} (hx : x < i₁.width) (hy : y < i₁.height) : h₂'.px o₂ y x = h₁'.px o₁ x y := by
  have e1 := box_call hk hok hkw c₁ hb (fun x y _ _ => by rw [C49_exact]; rfl) r₁ hx hy
  have e2 := box_call (x := y) (y := x) hk' hok hkw c₂ (by rw [w2, t2]; exact hb.symm) (fun x y _ _ => by rw [C49_exact]; rfl) r₂ (by omega) (by omega)
  rw [e1, e2, C49_exact, C49_exact, w2, t2]
  simp only [ext_transposed, sumF_eq]
  rw [Finset.sum_comm]

/-! ## Mirroring -/

/-- The picture mirrored left to right (and upside down if `a`), with the mirrored kernel. -/
theorem C103_mirrored_horizontal {c : Nat → K} {a : Bool} (hk : k.Is1D kw o c) (hk' : k'.Is1D kw (kw - 1 - o) (fun i => c (kw - 1 - i))) (hok : o < kw)
    (c₁ : ConvolveCall h₁ i₁ u₁ f kw) (c₂ : ConvolveCall h₂ i₂ u₂ (mirrored true a i₁.width i₁.height f) kw)
    (w2 : i₂.width = i₁.width) (t2 : i₂.height = i₁.height) (hb : b.Reach i₁.width o (kw - 1 - o))
    (r₁ : ConvolveImage.horizontal z (fieldArith K) k b i₁ u₁ h₁ = .ok o₁ h₁')
    (r₂ : ConvolveImage.horizontal z' (fieldArith K) k' b i₂ u₂ h₂ = .ok o₂ h₂')
    {x y : Nat} (hx : x < i₁.width) (hy : y < i₁.height) :
    h₂'.px o₂ x y = h₁'.px o₁ (mirrorIf true i₁.width x) (mirrorIf a i₁.height y) := by
  have e1 := row_call hk hok c₁ hb (fun x y _ _ => by rw [C47_exact]; rfl) r₁ (mirrorIf_lt (b := true) hx) (mirrorIf_lt (b := a) hy)
  have e2 := row_call (x := x) (y := y) hk' (by omega) c₂ (by rw [w2, show kw - 1 - (kw - 1 - o) = o by omega]; exact hb.swap)
    (fun x y _ _ => by rw [C47_exact]; rfl) r₂ (by omega) (by omega)
  rw [e1, e2, C47_exact, C47_exact, w2, t2, sumF_row_mirrored (fun c v => c * v) b hok hx hy]

theorem C103_mirrored_vertical {c : Nat → K} {a : Bool} (hk : k.Is1D kw o c) (hk' : k'.Is1D kw (kw - 1 - o) (fun i => c (kw - 1 - i))) (hok : o < kw)
    (c₁ : ConvolveCall h₁ i₁ u₁ f kw) (c₂ : ConvolveCall h₂ i₂ u₂ (mirrored a true i₁.width i₁.height f) kw)
    (w2 : i₂.width = i₁.width) (t2 : i₂.height = i₁.height) (hb : b.Reach i₁.height o (kw - 1 - o))
    (r₁ : ConvolveImage.vertical z (fieldArith K) k b i₁ u₁ h₁ = .ok o₁ h₁')
    (r₂ : ConvolveImage.vertical z' (fieldArith K) k' b i₂ u₂ h₂ = .ok o₂ h₂')
    {x y : Nat} (hx : x < i₁.width) (hy : y < i₁.height) :
    h₂'.px o₂ x y = h₁'.px o₁ (mirrorIf a i₁.width x) (mirrorIf true i₁.height y) := by
  have e1 := col_call hk hok c₁ hb (fun x y _ _ => by rw [C48_exact]; rfl) r₁ (mirrorIf_lt (b := a) hx) (mirrorIf_lt (b := true) hy)
  have e2 := col_call (x := x) (y := y) hk' (by omega) c₂ (by rw [t2, show kw - 1 - (kw - 1 - o) = o by omega]; exact hb.swap)
    (fun x y _ _ => by rw [C48_exact]; rfl) r₂ (by omega) (by omega)
  rw [e1, e2, C48_exact, C48_exact, w2, t2, sumF_col_mirrored (fun c v => c * v) b hok hx hy]

/-- A picture turned by half a turn, with the kernel turned by half a turn. -/
theorem C103_mirrored_convolve {c : Nat → Nat → K} (hk : k.Is2D kw o c)
    (hk' : k'.Is2D kw (kw - 1 - o) (fun i j => c (kw - 1 - i) (kw - 1 - j))) (hok : o < kw) (hkw : kw < 65536)
    (c₁ : ConvolveCall h₁ i₁ u₁ f kw) (c₂ : ConvolveCall h₂ i₂ u₂ (mirrored true true i₁.width i₁.height f) kw)
    (w2 : i₂.width = i₁.width) (t2 : i₂.height = i₁.height) (hb : b.Reach i₁.width o (kw - 1 - o) ∧ b.Reach i₁.height o (kw - 1 - o))
    (r₁ : ConvolveImage.convolve z (fieldArith K) k b i₁ u₁ h₁ = .ok o₁ h₁')
    (r₂ : ConvolveImage.convolve z' (fieldArith K) k' b i₂ u₂ h₂ = .ok o₂ h₂')
    {x y : Nat} (hx : x < i₁.width) (hy : y < i₁.height) :
    h₂'.px o₂ x y = h₁'.px o₁ (i₁.width - 1 - x) (i₁.height - 1 - y) := by
  have e1 := box_call (x := i₁.width - 1 - x) (y := i₁.height - 1 - y) hk hok hkw c₁ hb (fun x y _ _ => by rw [C49_exact]; rfl) r₁ (by omega) (by omega)
  have e2 := box_call (x := x) (y := y) hk' (by omega) hkw c₂
    (by rw [w2, t2, show kw - 1 - (kw - 1 - o) = o by omega]; exact ⟨hb.1.swap, hb.2.swap⟩)
    (fun x y _ _ => by rw [C49_exact]; rfl) r₂ (by omega) (by omega)
  rw [e1, e2, C49_exact, C49_exact, w2, t2, sumF_box_mirrored (fun c v => c * v) b hok hx hy]

/-! ## Sums -/

theorem C103_total_horizontal {c : Nat → K} (hk : k.Is1D kw o c) (hok : o < kw) (c₁ : ConvolveCall h₁ i₁ u₁ f kw)
    (hb : (Border.wrap : Border K).Reach i₁.width o (kw - 1 - o)) (r₁ : ConvolveImage.horizontal z (fieldArith K) k .wrap i₁ u₁ h₁ = .ok o₁ h₁') :
    ∃ g, (∀ x y, x < i₁.width → y < i₁.height → h₁'.px o₁ x y = some (g x y)) ∧
      total i₁.width i₁.height g = sumF kw c * total i₁.width i₁.height f := by
  refine ⟨_, fun x y hx hy => (row_call hk hok c₁ hb (fun x y _ _ => by rw [C47_exact]; rfl) r₁ hx hy).trans C47_exact, ?_⟩
  rw [total_sum c (fun k x y => (Border.wrap : Border K).ext i₁.width i₁.height f ((x : Int) + k - o) y)]
  have : ∀ k : Nat, total i₁.width i₁.height (fun x y => (Border.wrap : Border K).ext i₁.width i₁.height f ((x : Int) + k - o) y) =
      total i₁.width i₁.height f := by
    intro k
    rw [← total_turn f ((k : Int) - o) 0]
    exact total_congr fun x y _ _ => by rw [Int.add_zero, Int.add_sub_assoc]
  simp only [this]
  simp only [sumF_eq, Finset.sum_mul]

theorem C103_total_vertical {c : Nat → K} (hk : k.Is1D kw o c) (hok : o < kw) (c₁ : ConvolveCall h₁ i₁ u₁ f kw)
    (hb : (Border.wrap : Border K).Reach i₁.height o (kw - 1 - o)) (r₁ : ConvolveImage.vertical z (fieldArith K) k .wrap i₁ u₁ h₁ = .ok o₁ h₁') :
    ∃ g, (∀ x y, x < i₁.width → y < i₁.height → h₁'.px o₁ x y = some (g x y)) ∧
      total i₁.width i₁.height g = sumF kw c * total i₁.width i₁.height f := by
  refine ⟨_, fun x y hx hy => (col_call hk hok c₁ hb (fun x y _ _ => by rw [C48_exact]; rfl) r₁ hx hy).trans C48_exact, ?_⟩
  rw [total_sum c (fun k x y => (Border.wrap : Border K).ext i₁.width i₁.height f (x : Int) ((y : Int) + k - o))]
  have : ∀ k : Nat, total i₁.width i₁.height (fun x y => (Border.wrap : Border K).ext i₁.width i₁.height f (x : Int) ((y : Int) + k - o)) =
      total i₁.width i₁.height f := by
    intro k
    rw [← total_turn f 0 ((k : Int) - o)]
    exact total_congr fun x y _ _ => by rw [Int.add_zero, Int.add_sub_assoc]
  simp only [this]
  simp only [sumF_eq, Finset.sum_mul]

theorem C103_total_convolve {c : Nat → Nat → K} (hk : k.Is2D kw o c) (hok : o < kw) (hkw : kw < 65536) (c₁ : ConvolveCall h₁ i₁ u₁ f kw)
    (hb : (Border.wrap : Border K).Reach i₁.width o (kw - 1 - o) ∧ (Border.wrap : Border K).Reach i₁.height o (kw - 1 - o))
    (r₁ : ConvolveImage.convolve z (fieldArith K) k .wrap i₁ u₁ h₁ = .ok o₁ h₁') :
    ∃ g, (∀ x y, x < i₁.width → y < i₁.height → h₁'.px o₁ x y = some (g x y)) ∧
      total i₁.width i₁.height g = sumF kw (fun j => sumF kw (fun i => c i j)) * total i₁.width i₁.height f := by
  refine ⟨_, fun x y hx hy => (box_call hk hok hkw c₁ hb (fun x y _ _ => by rw [C49_exact]; rfl) r₁ hx hy).trans C49_exact, ?_⟩
  have one := total_sum (w := i₁.width) (ht := i₁.height) (n := kw) (fun _ => (1 : K))
    (fun j x y => sumF kw (fun i => c i j * (Border.wrap : Border K).ext i₁.width i₁.height f ((x : Int) + i - o) ((y : Int) + j - o)))
  simp only [one_mul] at one
  rw [one]
  have : ∀ i j : Nat, total i₁.width i₁.height (fun x y => (Border.wrap : Border K).ext i₁.width i₁.height f ((x : Int) + i - o) ((y : Int) + j - o)) =
      total i₁.width i₁.height f := by
    intro i j
    rw [← total_turn f ((i : Int) - o) ((j : Int) - o)]
    exact total_congr fun x y _ _ => by rw [Int.add_sub_assoc, Int.add_sub_assoc]
  have row : ∀ j : Nat, total i₁.width i₁.height (fun x y => sumF kw (fun i => c i j *
      (Border.wrap : Border K).ext i₁.width i₁.height f ((x : Int) + i - o) ((y : Int) + j - o))) =
      sumF kw (fun i => c i j) * total i₁.width i₁.height f := by
    intro j
    rw [total_sum (fun i => c i j) (fun i x y => (Border.wrap : Border K).ext i₁.width i₁.height f ((x : Int) + i - o) ((y : Int) + j - o))]
    simp only [this]
    simp only [sumF_eq, Finset.sum_mul]
  simp only [row]
  simp only [sumF_eq, Finset.sum_mul]

end field

/-! ## Integral arithmetic -/

section int
variable {t r : IntTy} {h₁ h₂ h₁' h₂' : Heap Int} {i₁ i₂ u₁ u₂ o₁ o₂ : Gray} {f : Nat → Nat → Int} {kw o : Nat} {k k' : Kernel Int} {b : Border Int}
  {z z' : Int}

/-- Mirroring, for integral pixels whose sums fit the type of sums. -/
theorem C103_mirrored_horizontal_int {c : Nat → Int} {a : Bool} (hk : k.Is1D kw o c) (hk' : k'.Is1D kw (kw - 1 - o) (fun i => c (kw - 1 - i)))
    (hok : o < kw) (c₁ : ConvolveCall h₁ i₁ u₁ f kw) (c₂ : ConvolveCall h₂ i₂ u₂ (mirrored true a i₁.width i₁.height f) kw)
    (w2 : i₂.width = i₁.width) (t2 : i₂.height = i₁.height) (hb : b.Reach i₁.width o (kw - 1 - o))
    (fit : ∀ x y, x < i₁.width → y < i₁.height →
      sumF kw (fun k => |c k * b.ext i₁.width i₁.height f ((x : Int) + k - o) y|) ≤ t.signedType.hi)
    (r₁ : ConvolveImage.horizontal z (intArith t r) k b i₁ u₁ h₁ = .ok o₁ h₁')
    (r₂ : ConvolveImage.horizontal z' (intArith t r) k' b i₂ u₂ h₂ = .ok o₂ h₂')
    {x y : Nat} (hx : x < i₁.width) (hy : y < i₁.height) :
    h₂'.px o₂ x y = h₁'.px o₁ (mirrorIf true i₁.width x) (mirrorIf a i₁.height y) := by
  have e1 := row_call hk hok c₁ hb (fun x y hx hy => by rw [C47_integer (fit x y hx hy)]; rfl) r₁ (mirrorIf_lt (b := true) hx) (mirrorIf_lt (b := a) hy)
  have fit' : ∀ x y, x < i₂.width → y < i₂.height → sumF kw (fun k => |c (kw - 1 - k) * b.ext i₂.width i₂.height
      (mirrored true a i₁.width i₁.height f) ((x : Int) + k - (kw - 1 - o : Nat)) y|) ≤ t.signedType.hi := by
    intro x y hx hy
    rw [w2, t2, sumF_row_mirrored (fun c v => |c * v|) b hok (by omega) (by omega)]
    exact fit _ _ (mirrorIf_lt (by omega)) (mirrorIf_lt (by omega))
  have e2 := row_call (x := x) (y := y) hk' (by omega) c₂ (by rw [w2, show kw - 1 - (kw - 1 - o) = o by omega]; exact hb.swap)
    (fun x y hx hy => by rw [C47_integer (fit' x y hx hy)]; rfl) r₂ (by omega) (by omega)
  rw [e1, e2, C47_integer (fit _ _ (mirrorIf_lt hx) (mirrorIf_lt hy)), C47_integer (fit' _ _ (by omega) (by omega)), w2, t2,
    sumF_row_mirrored (fun c v => c * v) b hok hx hy]

theorem C103_mirrored_vertical_int {c : Nat → Int} {a : Bool} (hk : k.Is1D kw o c) (hk' : k'.Is1D kw (kw - 1 - o) (fun i => c (kw - 1 - i)))
    (hok : o < kw) (c₁ : ConvolveCall h₁ i₁ u₁ f kw) (c₂ : ConvolveCall h₂ i₂ u₂ (mirrored a true i₁.width i₁.height f) kw)
    (w2 : i₂.width = i₁.width) (t2 : i₂.height = i₁.height) (hb : b.Reach i₁.height o (kw - 1 - o))
    (fit : ∀ x y, x < i₁.width → y < i₁.height →
      sumF kw (fun k => |c k * b.ext i₁.width i₁.height f x ((y : Int) + k - o)|) ≤ t.signedType.hi)
    (r₁ : ConvolveImage.vertical z (intArith t r) k b i₁ u₁ h₁ = .ok o₁ h₁')
    (r₂ : ConvolveImage.vertical z' (intArith t r) k' b i₂ u₂ h₂ = .ok o₂ h₂')
    {x y : Nat} (hx : x < i₁.width) (hy : y < i₁.height) :
    h₂'.px o₂ x y = h₁'.px o₁ (mirrorIf a i₁.width x) (mirrorIf true i₁.height y) := by
  have e1 := col_call hk hok c₁ hb (fun x y hx hy => by rw [C48_integer (fit x y hx hy)]; rfl) r₁ (mirrorIf_lt (b := a) hx) (mirrorIf_lt (b := true) hy)
  have fit' : ∀ x y, x < i₂.width → y < i₂.height → sumF kw (fun k => |c (kw - 1 - k) * b.ext i₂.width i₂.height
      (mirrored a true i₁.width i₁.height f) x ((y : Int) + k - (kw - 1 - o : Nat))|) ≤ t.signedType.hi := by
    intro x y hx hy
    rw [w2, t2, sumF_col_mirrored (fun c v => |c * v|) b hok (by omega) (by omega)]
    exact fit _ _ (mirrorIf_lt (by omega)) (mirrorIf_lt (by omega))
  have e2 := col_call (x := x) (y := y) hk' (by omega) c₂ (by rw [t2, show kw - 1 - (kw - 1 - o) = o by omega]; exact hb.swap)
    (fun x y hx hy => by rw [C48_integer (fit' x y hx hy)]; rfl) r₂ (by omega) (by omega)
  rw [e1, e2, C48_integer (fit _ _ (mirrorIf_lt hx) (mirrorIf_lt hy)), C48_integer (fit' _ _ (by omega) (by omega)), w2, t2,
    sumF_col_mirrored (fun c v => c * v) b hok hx hy]

theorem C103_mirrored_convolve_int {c : Nat → Nat → Int} (hk : k.Is2D kw o c)
    (hk' : k'.Is2D kw (kw - 1 - o) (fun i j => c (kw - 1 - i) (kw - 1 - j))) (hok : o < kw) (hkw : kw < 65536)
    (c₁ : ConvolveCall h₁ i₁ u₁ f kw) (c₂ : ConvolveCall h₂ i₂ u₂ (mirrored true true i₁.width i₁.height f) kw)
    (w2 : i₂.width = i₁.width) (t2 : i₂.height = i₁.height) (hb : b.Reach i₁.width o (kw - 1 - o) ∧ b.Reach i₁.height o (kw - 1 - o))
    (fit : ∀ x y, x < i₁.width → y < i₁.height → sumF kw (fun j => sumF kw (fun i =>
      |c i j * b.ext i₁.width i₁.height f ((x : Int) + i - o) ((y : Int) + j - o)|)) ≤ t.signedType.hi)
    (r₁ : ConvolveImage.convolve z (intArith t r) k b i₁ u₁ h₁ = .ok o₁ h₁')
    (r₂ : ConvolveImage.convolve z' (intArith t r) k' b i₂ u₂ h₂ = .ok o₂ h₂')
    {x y : Nat} (hx : x < i₁.width) (hy : y < i₁.height) :
    h₂'.px o₂ x y = h₁'.px o₁ (i₁.width - 1 - x) (i₁.height - 1 - y) := by
  have e1 := box_call (x := i₁.width - 1 - x) (y := i₁.height - 1 - y) hk hok hkw c₁ hb (fun x y hx hy => by rw [C49_integer (fit x y hx hy)]; rfl) r₁
    (by omega) (by omega)
  have fit' : ∀ x y, x < i₂.width → y < i₂.height → sumF kw (fun j => sumF kw (fun i => |c (kw - 1 - i) (kw - 1 - j) * b.ext i₂.width i₂.height
      (mirrored true true i₁.width i₁.height f) ((x : Int) + i - (kw - 1 - o : Nat)) ((y : Int) + j - (kw - 1 - o : Nat))|)) ≤ t.signedType.hi := by
    intro x y hx hy
    rw [w2, t2, sumF_box_mirrored (fun c v => |c * v|) b hok (by omega) (by omega)]
    exact fit _ _ (by omega) (by omega)
  have e2 := box_call (x := x) (y := y) hk' (by omega) hkw c₂
    (by rw [w2, t2, show kw - 1 - (kw - 1 - o) = o by omega]; exact ⟨hb.1.swap, hb.2.swap⟩)
    (fun x y hx hy => by rw [C49_integer (fit' x y hx hy)]; rfl) r₂ (by omega) (by omega)
  rw [e1, e2, C49_integer (fit _ _ (by omega) (by omega)), C49_integer (fit' _ _ (by omega) (by omega)), w2, t2,
    sumF_box_mirrored (fun c v => c * v) b hok hx hy]

end int

/-- Two rows of four pixels; moved by three columns and a row; mirrored, at two borders; and with rows and columns exchanged. -/
example :
    (match ConvolveImage.horizontal 0 (intArith U8 S32) ⟨3, 0, ⟨[1, 10, 100], 3, 0, true⟩⟩ .wrap ⟨0, 8, 4, 2, 0, 4, false⟩ ⟨1, 8, 4, 2, 0, 4, false⟩
        ⟨[some [1, 2, 3, 4, 5, 6, 7, 8], some (List.replicate 8 0)]⟩ with | .ok _ h' => h'.get 1 | _ => none) = some [321, 432, 143, 214, 765, 876, 587, 658] ∧
    (match ConvolveImage.horizontal 0 (intArith U8 S32) ⟨3, 0, ⟨[1, 10, 100], 3, 0, true⟩⟩ .wrap ⟨0, 8, 4, 2, 0, 4, false⟩ ⟨1, 8, 4, 2, 0, 4, false⟩
        ⟨[some [8, 5, 6, 7, 4, 1, 2, 3], some (List.replicate 8 0)]⟩ with | .ok _ h' => h'.get 1 | _ => none) = some [658, 765, 876, 587, 214, 321, 432, 143] ∧
    (match ConvolveImage.horizontal 0 (intArith U8 S32) ⟨3, 2, ⟨[100, 10, 1], 3, 0, true⟩⟩ .wrap ⟨0, 8, 4, 2, 0, 4, false⟩ ⟨1, 8, 4, 2, 0, 4, false⟩
        ⟨[some [4, 3, 2, 1, 8, 7, 6, 5], some (List.replicate 8 0)]⟩ with | .ok _ h' => h'.get 1 | _ => none) = some [214, 143, 432, 321, 658, 587, 876, 765] ∧
    (match ConvolveImage.horizontal 0 (intArith U8 S32) ⟨3, 0, ⟨[1, 10, 100], 3, 0, true⟩⟩ .reflect ⟨0, 8, 4, 2, 0, 4, false⟩ ⟨1, 8, 4, 2, 0, 4, false⟩
        ⟨[some [1, 2, 3, 4, 5, 6, 7, 8], some (List.replicate 8 0)]⟩ with | .ok _ h' => h'.get 1 | _ => none) = some [321, 432, 343, 234, 765, 876, 787, 678] ∧
    (match ConvolveImage.horizontal 0 (intArith U8 S32) ⟨3, 2, ⟨[100, 10, 1], 3, 0, true⟩⟩ .reflect ⟨0, 8, 4, 2, 0, 4, false⟩ ⟨1, 8, 4, 2, 0, 4, false⟩
        ⟨[some [4, 3, 2, 1, 8, 7, 6, 5], some (List.replicate 8 0)]⟩ with | .ok _ h' => h'.get 1 | _ => none) = some [234, 343, 432, 321, 678, 787, 876, 765] ∧
    (match ConvolveImage.vertical 0 (intArith U8 S32) ⟨3, 0, ⟨[1, 10, 100], 3, 0, true⟩⟩ .wrap ⟨0, 8, 2, 4, 0, 2, false⟩ ⟨1, 8, 2, 4, 0, 2, false⟩
        ⟨[some [1, 5, 2, 6, 3, 7, 4, 8], some (List.replicate 8 0)]⟩ with | .ok _ h' => h'.get 1 | _ => none) = some [321, 765, 432, 876, 143, 587, 214, 658] ∧
    (321 + 432 + 143 + 214 + 765 + 876 + 587 + 658 : Int) = (1 + 10 + 100) * (1 + 2 + 3 + 4 + 5 + 6 + 7 + 8) := by
  decide +kernel

end Boof
