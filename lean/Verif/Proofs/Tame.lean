import Verif.Proofs.BlurRun
/-
Programs which only read and write cells: they end in undefined behaviour or normally, and never make, free or resize
an array.
-/
namespace Boof
open M
variable {V S T α β : Type}

/-- The arrays of `h'` are those of `h`, with the same lengths. -/
def SameArrays (h h' : Heap V) : Prop := ∀ b, (h'.get b).map List.length = (h.get b).map List.length

theorem SameArrays.refl (h : Heap V) : SameArrays h h := fun _ => rfl

theorem SameArrays.trans {h h1 h2 : Heap V} (a : SameArrays h h1) (b : SameArrays h1 h2) : SameArrays h h2 :=
  fun i => (b i).trans (a i)

theorem SameArrays.cell_none {h h' : Heap V} (s : SameArrays h h') {b i : Nat} (hc : h.cell b i = none) :
    h'.cell b i = none := by
  have := s b
  unfold Heap.cell at *
  cases e : h.get b <;> cases e' : h'.get b <;> rw [e, e'] at this <;> simp at this
  · rfl
  · rw [e] at hc
    simp only [Option.bind_some, List.getElem?_eq_none_iff] at hc ⊢
    omega

/-- `m` ends in undefined behaviour or normally, with the same arrays. -/
def Tame (m : M V α) : Prop := ∀ h, m h = .ub ∨ ∃ a h', m h = .ok a h' ∧ SameArrays h h'

namespace Tame

theorem pure (a : α) : Tame (Pure.pure a : M V α) := fun h => Or.inr ⟨a, h, rfl, .refl h⟩

theorem ub : Tame (M.ub : M V α) := fun _ => Or.inl rfl

theorem bind {m : M V α} {f : α → M V β} (hm : Tame m) (hf : ∀ a, Tame (f a)) : Tame (m >>= f) := fun h => by
  rcases hm h with e | ⟨a, h', e, s⟩
  · exact Or.inl (M.bind_ub e)
  · rw [M.bind_ok e]
    rcases hf a h' with e' | ⟨b, h'', e', s'⟩
    · exact Or.inl e'
    · exact Or.inr ⟨b, h'', e', s.trans s'⟩

theorem rd (b i : Nat) : Tame (M.rd b i : M V V) := fun h => by
  unfold M.rd
  cases h.cell b i with
  | none => exact Or.inl rfl
  | some v => exact Or.inr ⟨v, h, rfl, .refl h⟩

theorem wr (b i : Nat) (v : V) : Tame (M.wr b i v) := fun h => by
  unfold M.wr
  cases h.cell b i with
  | none => exact Or.inl rfl
  | some _ =>
    refine Or.inr ⟨(), _, rfl, fun b' => ?_⟩
    by_cases e : b' = b
    · subst e
      cases hg : h.get b' with
      | none => simp [Heap.setCell, hg]
      | some l => rw [Heap.get_setCell_same hg]; simp
    · rw [Heap.get_setCell_ne e]

theorem opt (o : Option α) : Tame (Boof.opt o : M V α) := by
  cases o with
  | none => exact Tame.ub
  | some a => exact Tame.pure a

theorem kget (k : Kernel S) (i : Nat) : Tame (k.get i : M V S) := by
  unfold Kernel.get
  cases k.data.data[i]? with
  | none => exact Tame.ub
  | some a => exact Tame.pure a

theorem loopS {n : Nat} {init : β} {body : Nat → β → M V β} (hb : ∀ i s, i < n → Tame (body i s)) :
    Tame (M.loopS n init body) := by
  induction n with
  | zero => exact Tame.pure init
  | succ n ih =>
    exact Tame.bind (m := M.loopS n init body) (ih (fun i s hi => hb i s (by omega))) (fun s => hb n s (by omega))

theorem loop {n : Nat} {body : Nat → M V Unit} (hb : ∀ i, i < n → Tame (body i)) : Tame (M.loop n body) :=
  Tame.loopS (fun i _ hi => hb i hi)

theorem forRange {lo hi : Nat} {body : Nat → M V Unit} (hb : ∀ i, Tame (body i)) : Tame (M.forRange lo hi body) :=
  Tame.loop (fun i _ => hb (lo + i))

theorem ite {c : Prop} [Decidable c] {m1 m2 : M V α} (h1 : Tame m1) (h2 : Tame m2) : Tame (if c then m1 else m2) := by
  by_cases hc : c
  · rw [if_pos hc]; exact h1
  · rw [if_neg hc]; exact h2

/-- A program whose second part is undefined wherever the first part can lead is undefined. -/
theorem bind_ub {m : M V α} {f : α → M V β} (hm : Tame m) {h : Heap V}
    (hf : ∀ a h', SameArrays h h' → f a h' = .ub) : (m >>= f) h = .ub := by
  rcases hm h with e | ⟨a, h', e, s⟩
  · exact M.bind_ub e
  · rw [M.bind_ok e]; exact hf a h' s

/-- A loop with one iteration which is undefined from wherever it starts is undefined. -/
theorem loopS_ub {n k : Nat} {init : β} {body : Nat → β → M V β} (hb : ∀ i s, i < n → Tame (body i s)) (hk : k < n)
    {h : Heap V} (hu : ∀ s h', SameArrays h h' → body k s h' = .ub) : M.loopS n init body h = .ub := by
  induction n with
  | zero => omega
  | succ n ih =>
    by_cases e : k = n
    · subst e
      exact Tame.bind_ub (m := M.loopS k init body) (Tame.loopS (fun i s hi => hb i s (by omega))) (fun s h' ss => hu s h' ss)
    · exact M.bind_ub (m := M.loopS n init body) (ih (fun i s hi => hb i s (by omega)) (by omega))

end Tame

section
variable {A : Arith V S} {B : MeanArith V T} {k : Kernel S} {a g : Gray} {r : Nat}

theorem span_tame {k0 k1 src : Nat} : Tame (ConvolveNormalizedJustBorder.span A k a k0 k1 src) :=
  Tame.loopS (fun _ _ _ => .bind (.kget _ _) (fun _ => .bind (.opt _) (fun _ => .bind (.rd _ _) (fun _ =>
    .bind (.opt _) (fun _ => .pure _)))))

theorem justHorizontal_tame : Tame (ConvolveNormalizedJustBorder.horizontal A k a g) := by
  unfold ConvolveNormalizedJustBorder.horizontal
  refine Tame.loop (fun i _ => .bind (.forRange (fun j => .bind span_tame (fun _ => .bind (.opt _) (fun _ => .wr _ _ _))))
    (fun _ => .forRange (fun j => .bind span_tame (fun _ => .bind (.opt _) (fun _ => .wr _ _ _)))))

theorem weight_tame {k0 k1 : Nat} : Tame (ConvolveNormalizedJustBorder.weight A k k0 k1) :=
  Tame.loopS (fun _ _ _ => .bind (.kget _ _) (fun _ => .opt _))

theorem column_tame {k0 k1 src : Nat} : Tame (ConvolveNormalizedJustBorder.column A k a k0 k1 src) :=
  Tame.loopS (fun _ _ _ => .bind (.rd _ _) (fun _ => .bind (.kget _ _) (fun _ => .opt _)))

theorem justVertical_tame : Tame (ConvolveNormalizedJustBorder.vertical A k a g) := by
  unfold ConvolveNormalizedJustBorder.vertical
  refine .bind (.loop (fun y _ => .bind weight_tame (fun _ => .forRange (fun i => .bind column_tame (fun _ =>
    .bind (.opt _) (fun _ => .wr _ _ _)))))) (fun _ => .forRange (fun y => .bind weight_tame (fun _ => .forRange
    (fun i => .bind column_tame (fun _ => .bind (.opt _) (fun _ => .wr _ _ _))))))

theorem innerHorizontal_tame : Tame (ConvolveImageMean.innerHorizontal B a g r) := by
  unfold ConvolveImageMean.innerHorizontal
  refine .loop (fun y _ => .bind (.loopS (fun _ _ _ => .bind (.rd _ _) (fun _ => .opt _))) (fun _ => .bind (.opt _) (fun _ =>
    .bind (.wr _ _ _) (fun _ => .bind (.loopS (fun _ _ _ => .bind (.rd _ _) (fun _ => .bind (.rd _ _) (fun _ => .bind (.opt _)
      (fun _ => .bind (.opt _) (fun _ => .bind (.opt _) (fun _ => .bind (.wr _ _ _) (fun _ => .pure _)))))))) (fun _ => .pure _)))))

end

variable {A : Arith V S} {B : MeanArith V T} {a g : Gray} {r : Nat} {c : Nat → S}
  {mk : Nat → M V (Kernel S)} {conv : Kernel S → Gray → Gray → M V Unit}

/-- The first column of sums runs over `2*radius+1` rows; if the array ends before the last of them, this is undefined. -/
theorem innerVertical_ub {h : Heap V} (hw : 0 < a.width) (hst : 0 < a.stride)
    (hb : a.offset + a.stride * (2 * r + 1) < P32)
    (hidx : ∀ b, b = 0 ∨ b = a.offset → B.index b a.stride (2 * r + 1) = some (wrap32 (b + a.stride * (2 * r + 1))))
    (hend : h.cell a.buf (a.offset + 2 * r * a.stride) = none) : ConvolveImageMean.innerVertical B a g r h = .ub := by
  have hr : 2 * r + 1 < P32 := by
    have : 1 * (2 * r + 1) ≤ a.stride * (2 * r + 1) := Nat.mul_le_mul_right _ hst
    omega
  have ek : wrap32 (r * 2 + 1) = 2 * r + 1 := by rw [wrap32_of_lt (by omega)]; omega
  unfold ConvolveImageMean.innerVertical
  simp only [ek]
  rw [hidx 0 (Or.inl rfl)]
  refine (M.bind_ok (m := opt (some _)) rfl).trans (M.bind_ub ?_)
  refine Tame.loopS_ub (k := 0) (fun x s hx => .bind (.opt _) (fun _ => .bind (.loopS (fun _ _ _ => .bind (.rd _ _) (fun _ =>
    .opt _))) (fun _ => .bind (.opt _) (fun _ => .bind (.wr _ _ _) (fun _ => .pure _))))) hw (fun s h' ss => ?_)
  have e0 : wrap32 (a.offset + 0) = a.offset := wrap32_of_lt (by omega)
  simp only [e0]
  rw [hidx a.offset (Or.inr rfl), wrap32_of_lt hb]
  refine (M.bind_ok (m := opt (some _)) rfl).trans (M.bind_ub ?_)
  rw [stepCount_mul hst]
  refine Tame.loopS_ub (k := 2 * r) (fun _ _ _ => .bind (.rd _ _) (fun _ => .opt _)) (by omega) (fun s h'' ss' => M.bind_ub ?_)
  have : a.stride * (2 * r + 1) = 2 * r * a.stride + a.stride := by ring
  rw [wrap32_of_lt (by omega)]
  exact M.rd_ub ((ss.trans ss').cell_none hend)

theorem vertical_ub {h : Heap V} (ew : g.width = a.width) (eh : g.height = a.height) (hw : 2 * r + 1 ≤ a.width)
    (hst : a.width ≤ a.stride) (hb : a.offset + a.stride * (2 * r + 1) < P32)
    (hmk : ∀ h, ∃ k, mk (2 * r + 1) h = .ok k h ∧ k.Is1D (2 * r + 1) r c)
    (hidx : ∀ b, b = 0 ∨ b = a.offset → B.index b a.stride (2 * r + 1) = some (wrap32 (b + a.stride * (2 * r + 1))))
    (hend : h.cell a.buf (a.offset + 2 * r * a.stride) = none) :
    ConvolveImageMean.vertical A B mk conv a g r h = .ub := by
  have hr : 2 * r + 1 < P32 := by
    have : 1 * (2 * r + 1) ≤ a.stride * (2 * r + 1) := Nat.mul_le_mul_right _ (by omega)
    omega
  have ek : wrap32 (r * 2 + 1) = 2 * r + 1 := by rw [wrap32_of_lt (by omega)]; omega
  unfold ConvolveImageMean.vertical
  rw [ek]
  have hs : (checkSameShape2 a.width a.height g.width g.height : M V Unit) h = .ok () h := by
    unfold checkSameShape2
    rw [if_neg (by omega)]; rfl
  refine (M.bind_ok hs).trans ?_
  obtain ⟨k, e, hk⟩ := hmk h
  refine (M.bind_ok e).trans ?_
  rw [if_neg (by rw [hk.width]; omega)]
  exact Tame.bind_ub justVertical_tame (fun _ h' ss =>
    innerVertical_ub (by omega) (by omega) hb hidx (ss.cell_none hend))

theorem horizontal_tame (ew : g.width = a.width) (eh : g.height = a.height) (hw : 2 * r + 1 ≤ a.width)
    (hb : a.width < P32) (hmk : ∀ h, ∃ k, mk (2 * r + 1) h = .ok k h ∧ k.Is1D (2 * r + 1) r c) :
    Tame (ConvolveImageMean.horizontal A B mk conv a g r) := fun h => by
  have ek : wrap32 (r * 2 + 1) = 2 * r + 1 := by rw [wrap32_of_lt (by omega)]; omega
  unfold ConvolveImageMean.horizontal
  rw [ek]
  have hs : (checkSameShape2 a.width a.height g.width g.height : M V Unit) h = .ok () h := by
    unfold checkSameShape2
    rw [if_neg (by omega)]; rfl
  rw [M.bind_ok hs]
  obtain ⟨k, e, hk⟩ := hmk h
  rw [M.bind_ok e, if_neg (by rw [hk.width]; omega)]
  exact Tame.bind justHorizontal_tame (fun _ => innerHorizontal_tame) h

/-- Reshaping an image which owns its array adds no cells beyond those asked for. -/
theorem reshape_end {h h' : Heap V} (z : V) {g' : Gray} {w ht i : Nat} (hv : g.Valid h) (hs : g.subimage = false)
    (ha : w * ht < P32) (e : g.reshape z w ht h = .ok g' h') (hi : w * ht ≤ i) (hc : h.cell g.buf i = none) :
    h'.cell g'.buf i = none := by
  unfold Gray.reshape at e
  by_cases ew : g.width = w ∧ g.height = ht
  · rw [if_pos ew] at e
    cases e; exact hc
  · rw [if_neg ew] at e
    simp only [hs, Bool.false_eq_true, if_false] at e
    rw [wrap32_of_lt ha] at e
    by_cases hd : w * ht > g.dataLength
    · rw [if_pos hd] at e
      obtain ⟨l, el⟩ := Option.isSome_iff_exists.mp hv.live
      rw [M.bind_ok (a := ()) (h' := h.free g.buf) (by simp [M.delArr, el]),
        M.bind_ok (a := h.next) (h' := (h.free g.buf).alloc (List.replicate (w*ht) z)) (by simp [M.newArr, Heap.next_free])] at e
      cases e
      show Heap.cell _ h.next i = none
      rw [Heap.cell_alloc, Heap.next_free, if_pos rfl]
      simpa using hi
    · rw [if_neg hd] at e
      cases e; exact hc

theorem mean_ub {h : Heap V} {z : V} {output storage : Gray} (hi : a.Valid h) (ho : output.Valid h) (hst : storage.Valid h)
    (hc : output.CanBe a.width a.height) (hown : storage.subimage = false) (hne : storage.buf ≠ output.buf) (hr : 0 < r)
    (hw : 2 * r + 1 ≤ a.width) (hh : a.height < 2 * r + 1) (hb : a.width * (2 * r + 1) < P32)
    (hmk : ∀ h, ∃ k, mk (2 * r + 1) h = .ok k h ∧ k.Is1D (2 * r + 1) r c)
    (hidx : B.index 0 a.width (2 * r + 1) = some (wrap32 (a.width * (2 * r + 1))))
    (hend : h.cell storage.buf (2 * r * a.width) = none) {convH convV : Kernel S → Gray → Gray → M V Unit} :
    BlurImageOps.mean z (ConvolveImageMean.horizontal A B mk convH) (ConvolveImageMean.vertical A B mk convV) a output r storage h =
      .ub := by
  unfold BlurImageOps.mean
  rw [if_neg (by omega)]
  obtain ⟨o', h1, e1, r1⟩ := reshape_spec z ho hi.widthLt hi.heightLt hi.area_lt hc
  refine (M.bind_ok e1).trans ?_
  obtain ⟨v1, -, -⟩ := r1.input hst (Or.inl hne : storage.Sep output a.width a.height)
  obtain ⟨s', h2, e2, r2⟩ := reshape_spec z v1 hi.widthLt hi.heightLt hi.area_lt (Or.inl hown)
  refine (M.bind_ok e2).trans ?_
  have hle : a.width * a.height ≤ 2 * r * a.width := by rw [Nat.mul_comm (2 * r)]; exact Nat.mul_le_mul_left _ (by omega)
  have hend' : h2.cell s'.buf (2 * r * a.width) = none :=
    reshape_end z v1 hown hi.area_lt e2 hle (by rw [r1.frame _ _ hne hst.lt_next]; exact hend)
  obtain ⟨eo, es⟩ := r2.valid.owner (r2.sub.trans hown)
  rw [r2.width] at es
  refine Tame.bind_ub (horizontal_tame r2.width r2.height hw hi.widthLt hmk) (fun _ h3 ss => M.bind_ub ?_)
  refine vertical_ub (by rw [r1.width, r2.width]) (by rw [r1.height, r2.height]) (by rw [r2.width]; exact hw)
    (by rw [r2.width, es]) (by rw [eo, es]; omega) hmk (fun b hb' => ?_) ?_
  · have : b = 0 := by omega
    rw [this, es, hidx, Nat.zero_add]
  · rw [eo, es, Nat.zero_add]; exact ss.cell_none hend'

end Boof
