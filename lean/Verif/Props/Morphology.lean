import Verif.Proofs.Morphology
/-
C102: sequences of erosions and dilations.

`Calls ms h i h' o` (Spec/Morphology.lean) is a sequence of calls of the library, each on the result of the one before.  The library does not write
the frame of its output, so after `n` calls the pixels which are `Deep n`, at least `n` pixels away from the edges, are known: whatever the output
images held before.
-/
namespace Boof
open M

section
variable {ms : List Morph} {h h' g g' : Heap Int} {i o i₂ o₂ : Gray} {f f₂ : Nat → Nat → Int} {n x y : Nat}

/-- A sequence of calls does what the operations on sets of points of the plane do.  `A` is any set whose points within the picture are shown
by it. -/
theorem C102_calls {A : Int → Int → Prop} (c : Calls ms h i h' o) (hv : i.Valid h) (hf : i.Shows h f) (hA : ShowsSet i.width i.height f A)
    (hd : Deep ms.length i.width i.height x y) :
    ∃ v, h'.px o x y = some v ∧ (v = 0 ∨ v = 1) ∧ (v = 1 ↔ morphed ms A x y) := by
  obtain ⟨d1, d2, d3, d4⟩ := hd
  obtain ⟨ew, eh, -, k, hk, ha⟩ := c.spec (d := 0) hv hf (by omega) (by omega)
    (fun x y ⟨_, a, _, b⟩ => hA x y (by omega) (by omega))
  obtain ⟨b, e⟩ := ha x y ⟨by omega, by omega, by omega, by omega⟩
  exact ⟨k x y, hk x y (by omega) (by omega), b, e⟩

/-- The result and the input have the same shape. -/
theorem C102_shape (c : Calls ms h i h' o) (hv : i.Valid h) (hf : i.Shows h f) (h0 : 0 < i.width) (h1 : 0 < i.height) :
    o.width = i.width ∧ o.height = i.height ∧ o.Valid h' := by
  obtain ⟨ew, eh, hv', -⟩ := c.spec (d := i.width) (A := fun _ _ => True) hv hf h0 h1 (fun x y ⟨_, a, _, b⟩ => by omega)
  exact ⟨ew, eh, hv'⟩

/-- The pixels of a binary picture, as a set of points of the plane. -/
theorem showsSet_of (hbin : IsBinary i.width i.height f) : ShowsSet i.width i.height f (fun a b => f a.toNat b.toNat = 1) :=
  fun x y hx hy => ⟨hbin x y hx hy, by simp⟩

/-- `n` erosions: exactly the pixels all of whose surroundings, up to `n` steps away, are one. -/
theorem C102_erode (c : Calls (List.replicate n .erode) h i h' o) (hv : i.Valid h) (hf : i.Shows h f) (hbin : IsBinary i.width i.height f)
    (hd : Deep n i.width i.height x y) :
    ∃ v, h'.px o x y = some v ∧ (v = 0 ∨ v = 1) ∧ (v = 1 ↔ ∀ a b : Nat, steps x y a b ≤ n → f a b = 1) := by
  obtain ⟨v, e, b, w⟩ := C102_calls c hv hf (showsSet_of hbin) (by rw [List.length_replicate]; exact hd)
  obtain ⟨d1, d2, d3, d4⟩ := hd
  refine ⟨v, e, b, w.trans ?_⟩
  rw [morphed_erode]
  refine ⟨fun hall a b hs => by simpa using hall a b hs, fun hall a b hs => ?_⟩
  have h1 : ((a.toNat : Nat) : Int) = a := by unfold steps at hs; omega
  have h2 : ((b.toNat : Nat) : Int) = b := by unfold steps at hs; omega
  exact hall _ _ (by rw [h1, h2]; exact hs)

/-- `n` dilations: exactly the pixels at most `n` steps away from a pixel which is one. -/
theorem C102_dilate (c : Calls (List.replicate n .dilate) h i h' o) (hv : i.Valid h) (hf : i.Shows h f) (hbin : IsBinary i.width i.height f)
    (hd : Deep n i.width i.height x y) :
    ∃ v, h'.px o x y = some v ∧ (v = 0 ∨ v = 1) ∧ (v = 1 ↔ ∃ a b : Nat, steps x y a b ≤ n ∧ f a b = 1) := by
  obtain ⟨v, e, b, w⟩ := C102_calls c hv hf (showsSet_of hbin) (by rw [List.length_replicate]; exact hd)
  obtain ⟨d1, d2, d3, d4⟩ := hd
  refine ⟨v, e, b, w.trans ?_⟩
  rw [morphed_dilate]
  refine ⟨fun ⟨a, b, hs, ha⟩ => ⟨_, _, ?_, ha⟩, fun ⟨a, b, hs, ha⟩ => ⟨a, b, hs, by simpa using ha⟩⟩
  have h1 : ((a.toNat : Nat) : Int) = a := by unfold steps at hs; omega
  have h2 : ((b.toNat : Nat) : Int) = b := by unfold steps at hs; omega
  rw [h1, h2]; exact hs

/-- Opening a picture (erosions, then as many dilations) keeps no pixel which was not one. -/
theorem C102_opening (c : Calls (opening n) h i h' o) (hv : i.Valid h) (hf : i.Shows h f) (hbin : IsBinary i.width i.height f)
    (hd : Deep (2 * n) i.width i.height x y) : ∃ v, h'.px o x y = some v ∧ (v = 0 ∨ v = 1) ∧ v ≤ f x y := by
  obtain ⟨v, e, b, w⟩ := C102_calls c hv hf (showsSet_of hbin) (by unfold opening; simp only [List.length_append, List.length_replicate]; rwa [← Nat.two_mul])
  obtain ⟨d1, d2, d3, d4⟩ := hd
  refine ⟨v, e, b, ?_⟩
  rcases b with rfl | rfl
  · rcases hbin x y (by omega) (by omega) with h | h <;> omega
  · have := opening_sub (w.mp rfl)
    simp only [Int.toNat_natCast] at this
    omega

/-- Closing a picture (dilations, then as many erosions) loses no pixel which was one. -/
theorem C102_closing (c : Calls (closing n) h i h' o) (hv : i.Valid h) (hf : i.Shows h f) (hbin : IsBinary i.width i.height f)
    (hd : Deep (2 * n) i.width i.height x y) : ∃ v, h'.px o x y = some v ∧ (v = 0 ∨ v = 1) ∧ f x y ≤ v := by
  obtain ⟨v, e, b, w⟩ := C102_calls c hv hf (showsSet_of hbin) (by unfold closing; simp only [List.length_append, List.length_replicate]; rwa [← Nat.two_mul])
  obtain ⟨d1, d2, d3, d4⟩ := hd
  refine ⟨v, e, b, ?_⟩
  rcases hbin x y (by omega) (by omega) with h | h
  · omega
  · have := w.mpr (sub_closing (by simpa using h))
    omega

/-- Two sequences of calls whose operations do the same to sets give the same pixels. -/
theorem C102_same {ns : List Morph} (hm : ∀ (A : Int → Int → Prop) (x y : Int), morphed ms A x y ↔ morphed ns A x y)
    (c : Calls ms h i h' o) (c₂ : Calls ns g i₂ g' o₂) (hv : i.Valid h) (hv₂ : i₂.Valid g) (hf : i.Shows h f) (hf₂ : i₂.Shows g f)
    (hbin : IsBinary i.width i.height f) (ew : i₂.width = i.width) (eh : i₂.height = i.height)
    (hd : Deep ms.length i.width i.height x y) (hd₂ : Deep ns.length i.width i.height x y) :
    ∃ v, h'.px o x y = some v ∧ g'.px o₂ x y = some v := by
  obtain ⟨v, e, b, w⟩ := C102_calls c hv hf (showsSet_of hbin) hd
  obtain ⟨v', e', b', w'⟩ := C102_calls c₂ hv₂ hf₂ (showsSet_of (by rw [ew, eh]; exact hbin)) (by rw [ew, eh]; exact hd₂)
  have := w.trans ((hm _ _ _).trans w'.symm)
  have : v = v' := by omega
  exact ⟨v, e, by rw [e', this]⟩

/-- Opening twice is opening once. -/
theorem C102_opening_twice (c : Calls (opening n ++ opening n) h i h' o) (c₂ : Calls (opening n) g i₂ g' o₂) (hv : i.Valid h) (hv₂ : i₂.Valid g)
    (hf : i.Shows h f) (hf₂ : i₂.Shows g f) (hbin : IsBinary i.width i.height f) (ew : i₂.width = i.width) (eh : i₂.height = i.height)
    (hd : Deep (4 * n) i.width i.height x y) : ∃ v, h'.px o x y = some v ∧ g'.px o₂ x y = some v := by
  obtain ⟨d1, d2, d3, d4⟩ := hd
  refine C102_same (opening_twice n) c c₂ hv hv₂ hf hf₂ hbin ew eh ?_ ?_ <;>
  · simp only [opening, List.length_append, List.length_replicate]
    exact ⟨by omega, by omega, by omega, by omega⟩

/-- Closing twice is closing once. -/
theorem C102_closing_twice (c : Calls (closing n ++ closing n) h i h' o) (c₂ : Calls (closing n) g i₂ g' o₂) (hv : i.Valid h) (hv₂ : i₂.Valid g)
    (hf : i.Shows h f) (hf₂ : i₂.Shows g f) (hbin : IsBinary i.width i.height f) (ew : i₂.width = i.width) (eh : i₂.height = i.height)
    (hd : Deep (4 * n) i.width i.height x y) : ∃ v, h'.px o x y = some v ∧ g'.px o₂ x y = some v := by
  obtain ⟨d1, d2, d3, d4⟩ := hd
  refine C102_same (closing_twice n) c c₂ hv hv₂ hf hf₂ hbin ew eh ?_ ?_ <;>
  · simp only [closing, List.length_append, List.length_replicate]
    exact ⟨by omega, by omega, by omega, by omega⟩

/-- Every sequence of operations grows with the picture. -/
theorem C102_grows (c : Calls ms h i h' o) (c₂ : Calls ms g i₂ g' o₂) (hv : i.Valid h) (hv₂ : i₂.Valid g) (hf : i.Shows h f) (hf₂ : i₂.Shows g f₂)
    (hbin : IsBinary i.width i.height f) (hbin₂ : IsBinary i.width i.height f₂) (ew : i₂.width = i.width) (eh : i₂.height = i.height)
    (hle : ∀ a b, a < i.width → b < i.height → f a b ≤ f₂ a b) (hd : Deep ms.length i.width i.height x y) :
    ∃ v v', h'.px o x y = some v ∧ g'.px o₂ x y = some v' ∧ v ≤ v' := by
  obtain ⟨v, e, b, w⟩ := C102_calls (A := fun a b => 0 ≤ a ∧ a < i.width ∧ 0 ≤ b ∧ b < i.height ∧ f a.toNat b.toNat = 1) c hv hf
    (fun x y hx hy => ⟨hbin x y hx hy, by simp; omega⟩) hd
  obtain ⟨v', e', b', w'⟩ := C102_calls (A := fun a b => 0 ≤ a ∧ a < i.width ∧ 0 ≤ b ∧ b < i.height ∧ f₂ a.toNat b.toNat = 1) c₂ hv₂ hf₂
    (fun x y hx hy => ⟨hbin₂ x y (by omega) (by omega), by simp; omega⟩) (by rw [ew, eh]; exact hd)
  refine ⟨v, v', e, e', ?_⟩
  rcases b with rfl | rfl
  · omega
  · have := w'.mpr (morphed_mono ms (fun a b ⟨h1, h2, h3, h4, h5⟩ => ⟨h1, h2, h3, h4, by
      have := hle a.toNat b.toNat (by omega) (by omega)
      have := hbin₂ a.toNat b.toNat (by omega) (by omega)
      omega⟩) (w.mp rfl))
    omega

end

/-- A picture of size `5 × 5` with a plus of ones, eroded and dilated.  After the first call only the middle is one, after the second the plus is
back; two columns and rows at each edge keep what the output images held (here `0`). -/
example : let p : List Int := [0,0,0,0,0, 0,0,1,0,0, 0,1,1,1,0, 0,0,1,0,0, 0,0,0,0,0]
    let q : List Int := [0,0,0,0,0, 0,0,0,0,0, 0,0,1,0,0, 0,0,0,0,0, 0,0,0,0,0]
    let z : List Int := List.replicate 25 0
    let i : Gray := ⟨0, 25, 5, 5, 0, 5, false⟩
    Calls (opening 1) ⟨[some p, some z, some z]⟩ i ⟨[some p, some q, some p]⟩ ⟨2, 25, 5, 5, 0, 5, false⟩ ∧
    i.Valid (⟨[some p, some z, some z]⟩ : Heap Int) ∧ Deep 2 5 5 2 2 := by
  intro p q z i
  refine ⟨?_, by decide, by decide, by decide, by decide, by decide⟩
  refine .call (u := ⟨1, 25, 5, 5, 0, 5, false⟩) (j := ⟨1, 25, 5, 5, 0, 5, false⟩) (h₁ := ⟨[some p, some q, some z]⟩) (by decide) (Or.inl rfl)
    (Or.inl (by decide)) (show BinaryImageOps.erode4 _ _ _ = _ by decide +kernel) ?_
  refine .call (u := ⟨2, 25, 5, 5, 0, 5, false⟩) (j := ⟨2, 25, 5, 5, 0, 5, false⟩) (h₁ := ⟨[some p, some q, some p]⟩) (by decide) (Or.inl rfl)
    (Or.inl (by decide)) (show BinaryImageOps.dilate4 _ _ _ = _ by decide +kernel) ?_
  exact .done _ _

/-- Near the edges the frame is seen: closing a picture of size `3 × 3` loses the pixel in the middle, because the frame of the output of the
dilation holds zeros, and all other pixels are what the second output held before. -/
theorem C102_frame :
    ∃ j o h₁ h', BinaryImageOps.dilate4 ⟨0, 9, 3, 3, 0, 3, false⟩ ⟨1, 9, 3, 3, 0, 3, false⟩
        ⟨[some [0,0,0, 0,1,0, 0,0,0], some [0,0,0, 0,0,0, 0,0,0], some [7,7,7, 7,7,7, 7,7,7]]⟩ = .ok j h₁ ∧
      BinaryImageOps.erode4 j ⟨2, 9, 3, 3, 0, 3, false⟩ h₁ = .ok o h' ∧ h'.get 2 = some [7,7,7, 7,0,7, 7,7,7] :=
  ⟨⟨1, 9, 3, 3, 0, 3, false⟩, ⟨2, 9, 3, 3, 0, 3, false⟩,
    ⟨[some [0,0,0, 0,1,0, 0,0,0], some [0,0,0, 0,1,0, 0,0,0], some [7,7,7, 7,7,7, 7,7,7]]⟩,
    ⟨[some [0,0,0, 0,1,0, 0,0,0], some [0,0,0, 0,1,0, 0,0,0], some [7,7,7, 7,0,7, 7,7,7]]⟩, by decide +kernel⟩

end Boof
