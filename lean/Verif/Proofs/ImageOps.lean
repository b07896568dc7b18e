import Verif.Proofs.Paint
/-
`Gray::Gray`, `Gray::copy`, `Gray::makeSubimage`, `Gray::operator=`.
-/
namespace Boof
variable {V : Type}

/-- What a freshly allocated image does to the heap. -/
theorem new_spec (z : V) (h : Heap V) {w ht : Nat} (hw : w < P32) (hh : ht < P32) (ha : w * ht < P32) :
    ∃ g, Gray.new z w ht h = .ok g (h.alloc (List.replicate (w*ht) z)) ∧ g.buf = h.next ∧
      g.width = w ∧ g.height = ht ∧ g.subimage = false ∧
      g.Valid (h.alloc (List.replicate (w*ht) z)) ∧ g.dataLength = w * ht := by
  refine ⟨{ buf := h.next, dataLength := w*ht, width := w, height := ht, offset := 0, stride := w,
            subimage := false }, ?_, rfl, rfl, rfl, rfl, ?_, rfl⟩
  · simp only [Gray.new, M.bind_run, M.newArr, wrap32_of_lt ha]; rfl
  · refine ⟨?_, ?_, ha, hw, hh, Nat.le_refl _, ?_, fun _ => ⟨rfl, rfl⟩⟩
    · simp [Heap.get_alloc]
    · intro i hi
      exact ⟨z, by rw [Heap.cell_alloc, if_pos rfl, List.getElem?_replicate, if_pos hi]⟩
    · intro y hy
      show 0 + y * w + w ≤ w * ht
      have := Nat.mul_le_mul_right w (Nat.succ_le_of_lt hy)
      rw [Nat.succ_mul, Nat.mul_comm ht w] at this
      omega

theorem memcpy_row {h h1 : Heap V} {g src : Gray} {f : Nat → Nat → V} {y : Nat}
    (hv : g.Valid h) (hs : src.Valid h) (hd : src.Disjoint g) (hw : g.width = src.width)
    (hh : g.height = src.height) (hf : src.Shows h f) (hy : y < g.height)
    (hp : Painted h h1 g (upto f y 0)) :
    Spec (memcpy g.buf (wrap32 (g.offset + y * g.stride)) src.buf
        (wrap32 (src.offset + y * src.stride)) src.width) h1
      (fun _ h2 => Painted h h2 g (upto f y g.width)) := by
  rw [hv.row_eq hy, hs.row_eq (by omega)]
  unfold memcpy
  rw [if_neg]
  · rw [hw]
    refine Spec.loop (fun x h2 => Painted h h2 g (upto f y x)) hp ?_
    intro x h2 hx hp2
    have e : h2.px src x y = some (f x y) := by
      rw [hp2.px_disjoint hd hx (by omega)]; exact hf x y hx (by omega)
    refine Spec.bind_eq (a := f x y) (h' := h2) (M.rd_run e) ?_
    exact upto_wr hv hp2 (by omega) hy rfl rfl
  · rintro ⟨eb, l1, l2⟩
    rcases Nat.le_total (g.offset + y * g.stride) (src.offset + y * src.stride) with hle | hle
    · refine hd 0 y (src.offset + y * src.stride - (g.offset + y * g.stride)) y (by omega) (by omega)
        (by omega) hy eb.symm ?_
      unfold Gray.addr; omega
    · refine hd (g.offset + y * g.stride - (src.offset + y * src.stride)) y 0 y (by omega) (by omega)
        (by omega) hy eb.symm ?_
      unfold Gray.addr; omega

theorem copy_spec {h : Heap V} (z : V) {g src : Gray} {f : Nat → Nat → V} (hv : g.Valid h)
    (hs : src.Valid h) (hc : g.CanBe src.width src.height) (hsep : src.Sep g src.width src.height)
    (hf : src.Shows h f) :
    Spec (g.copy z src) h (fun g' h' => Produced h h' g g' src.width src.height f) := by
  unfold Gray.copy
  rw [if_neg]
  · refine Spec.bind (reshape_spec z hv hs.widthLt hs.heightLt hs.area_lt hc) ?_
    intro g' h1 hr
    obtain ⟨hs1, hpx, hd⟩ := hr.input hs hsep
    refine Spec.bind (P := fun _ h2 => Painted h1 h2 g' (fun x y => some (f x y))) ?_ ?_
    · refine Spec.conseq (Spec.loop (fun y h2 => Painted h1 h2 g' (upto f y 0))
        ((Painted.refl h1 g').congr (fun x y _ _ => by simp [upto])) ?_) ?_
      · intro y h2 hy hp
        refine Spec.conseq (memcpy_row hr.valid hs1 hd hr.width hr.height ?_ hy hp) ?_
        · intro x y hx hy; rw [hpx]; exact hf x y hx hy
        · intro _ h3 hp3
          refine hp3.congr ?_
          intro x' y' hx' hy'
          unfold upto
          by_cases e : y' < y + 1
          · rw [if_pos (by omega), if_pos (by omega)]
          · rw [if_neg (by omega), if_neg (by omega)]
      · intro _ h2 hp2
        refine hp2.congr ?_
        intro x' y' hx' hy'
        unfold upto
        rw [if_pos (Or.inl hy')]
    · intro _ h2 hp
      exact Spec.pure (hr.produced hp)
  · rintro ⟨h1, h2⟩
    rcases hc with hc | ⟨hc1, hc2⟩
    · rw [hc] at h1; cases h1
    · rcases h2 with h2 | h2
      · exact h2 hc1
      · exact h2 hc2

theorem copy_throws {h : Heap V} (z : V) {g src : Gray} (hs : g.subimage = true)
    (he : ¬(g.width = src.width ∧ g.height = src.height)) : g.copy z src h = .throw h := by
  unfold Gray.copy
  rw [if_pos ⟨hs, by omega⟩]
  rfl

theorem sub_valid {h : Heap V} {g : Gray} {x0 y0 x1 y1 : Nat} (hv : g.Valid h)
    (hx : x0 ≤ x1) (hy : y0 ≤ y1) (hx1 : x1 ≤ g.width) (hy1 : y1 ≤ g.height) :
    (Gray.wrap g.buf g.dataLength (x1 - x0) (y1 - y0) (wrap32 (g.offset + y0 * g.stride + x0)) g.stride).Valid h := by
  have h1 := hv.widthLt; have h2 := hv.heightLt; have h3 := hv.rowLe
  refine ⟨hv.live, hv.cells, hv.lenLt, ?_, ?_, ?_, ?_, fun e => by cases e⟩
  · simp only [Gray.wrap]; omega
  · simp only [Gray.wrap]; omega
  · simp only [Gray.wrap]; omega
  · simp only [Gray.wrap]
    intro y hy'
    have hf := hv.fits (y0 + y) (by omega)
    have := hv.lenLt
    rw [Nat.add_mul] at hf
    rw [wrap32_of_lt (by omega)]
    omega

theorem sub_addr {h : Heap V} {g : Gray} {x0 y0 x1 y1 x y : Nat} (hv : g.Valid h)
    (hy1 : y1 ≤ g.height) (hx1 : x1 ≤ g.width) (hx : x < x1 - x0) (hy : y < y1 - y0) :
    (Gray.wrap g.buf g.dataLength (x1 - x0) (y1 - y0) (wrap32 (g.offset + y0 * g.stride + x0)) g.stride).addr x y
      = g.addr (x0 + x) (y0 + y) := by
  have hf := hv.fits (y0 + y) (by omega)
  have := hv.lenLt
  rw [Nat.add_mul] at hf
  simp only [Gray.addr, Gray.wrap]
  rw [wrap32_of_lt (by omega), Nat.add_mul]
  omega

end Boof
