import Verif.Model.BinaryOps
import Verif.Spec.Binary
import Verif.Proofs.Paint
import Verif.Proofs.Statistics
/-
C30-C33, C58: logic, erosion, dilation, thresholding, shape checks.
-/
namespace Boof
variable {V : Type}

/-! ## C58 shape checks -/

theorem C58_two (h : Heap V) (aw ah bw bh : Nat) :
    ((aw = bw ∧ ah = bh) → checkSameShape2 aw ah bw bh h = .ok () h) ∧
    (¬(aw = bw ∧ ah = bh) → checkSameShape2 aw ah bw bh h = .throw h) := by
  constructor
  · rintro ⟨rfl, rfl⟩; simp [checkSameShape2]; rfl
  · intro hn
    unfold checkSameShape2; rw [if_pos (by omega)]; rfl

theorem C58_three (h : Heap V) (aw ah bw bh cw ch : Nat) :
    ((aw = bw ∧ bw = cw ∧ ah = bh ∧ bh = ch) → checkSameShape3 aw ah bw bh cw ch h = .ok () h) ∧
    (¬(aw = bw ∧ bw = cw ∧ ah = bh ∧ bh = ch) → checkSameShape3 aw ah bw bh cw ch h = .throw h) := by
  constructor
  · rintro ⟨rfl, rfl, rfl, rfl⟩; simp [checkSameShape3]; rfl
  · intro hn
    unfold checkSameShape3
    by_cases e : aw ≠ bw ∨ ah ≠ bh
    · rw [if_pos e]; rfl
    · rw [if_neg e, if_pos (by omega)]; rfl

example : checkSameShape3 2 3 2 3 2 4 (⟨[]⟩ : Heap Int) = .throw ⟨[]⟩ := rfl

/-! ## C30 logic operations -/

/-- The common part of both operations. -/
theorem logic_run {h : Heap Int} {a b output : Gray} {fa fb F : Nat → Nat → Int} (ha : a.Valid h) (hb : b.Valid h)
    (ho : output.Valid h) (hw : a.width = b.width) (hh : a.height = b.height) (hsa : a.Shows h fa) (hsb : b.Shows h fb)
    (hc : output.CanBe a.width a.height) (sa : a.SepOrSame output a.width a.height)
    (sb : b.SepOrSame output a.width a.height)
    {body : Gray → Nat → Nat → Nat → M Int Unit}
    (hbody : ∀ o ia ib io h1 va vb, M.rd a.buf ia h1 = .ok va h1 → M.rd b.buf ib h1 = .ok vb h1 →
      ∀ x y, va = fa x y → vb = fb x y → body o ia ib io h1 = M.wr o.buf io (F x y) h1) :
    ∃ o h', (do
      let output ← output.reshape 0 a.width a.height
      M.loop a.height (fun y =>
        M.loop (wrap32 (wrap32 (a.offset + y * a.stride) + a.width) - wrap32 (a.offset + y * a.stride)) (fun k =>
          body output (wrap32 (a.offset + y * a.stride) + k) (wrap32 (wrap32 (b.offset + y * b.stride) + k))
            (wrap32 (wrap32 (output.offset + y * output.stride) + k))))
      pure output : M Int Gray) h = .ok o h' ∧ Produced h h' output o a.width a.height F := by
  obtain ⟨o, h1, e1, r⟩ := reshape_spec (0 : Int) ho ha.widthLt ha.heightLt ha.area_lt hc
  have ra := r.readable ha rfl rfl sa hsa
  have rb := r.readable hb hw.symm hh.symm sb hsb
  suffices hp : Spec (M.loop o.height (fun y => M.loop o.width (fun x =>
      body o (wrap32 (a.offset + y * a.stride) + x) (wrap32 (wrap32 (b.offset + y * b.stride) + x))
        (wrap32 (wrap32 (o.offset + y * o.stride) + x))))) h1
      (fun _ h2 => Painted h1 h2 o (fun x y => some (F x y))) by
    obtain ⟨_, h2, e2, p⟩ := hp
    refine ⟨o, h2, ?_, r.produced p⟩
    rw [M.bind_ok e1]
    have hloop : M.loop a.height (fun y =>
        M.loop (wrap32 (wrap32 (a.offset + y * a.stride) + a.width) - wrap32 (a.offset + y * a.stride)) (fun k =>
          body o (wrap32 (a.offset + y * a.stride) + k) (wrap32 (wrap32 (b.offset + y * b.stride) + k))
            (wrap32 (wrap32 (o.offset + y * o.stride) + k)))) h1 = .ok () h2 := by
      rw [M.loop_congr (g := fun y => M.loop o.width (fun x =>
        body o (wrap32 (a.offset + y * a.stride) + x) (wrap32 (wrap32 (b.offset + y * b.stride) + x))
          (wrap32 (wrap32 (o.offset + y * o.stride) + x)))) (fun y hy => by rw [ha.row_len hy, r.width]), ← r.height]
      exact e2
    rw [M.bind_ok hloop]; rfl
  refine paint_loop2 F ?_
  intro y x h2 hy hx hp
  have hya : y < a.height := by rw [← r.height]; exact hy
  have hxa : x < a.width := by rw [← r.width]; exact hx
  have hyb : y < b.height := by omega
  have hxb : x < b.width := by omega
  have e1 := ra.rd hp hxa hya
  have e2 := rb.rd hp hxb hyb
  have i1 : wrap32 (a.offset + y * a.stride) + x = a.addr x y := by rw [ha.row_eq hya]; rfl
  have i2 : wrap32 (wrap32 (b.offset + y * b.stride) + x) = b.addr x y := by
    rw [hb.row_eq hyb]; exact hb.index_eq hxb hyb
  have i3 : wrap32 (wrap32 (o.offset + y * o.stride) + x) = o.addr x y := by
    rw [r.valid.row_eq hy]; exact r.valid.index_eq hx hy
  obtain ⟨u, h3, e3, q⟩ := upto_wr (f := F) r.valid hp hx hy i3 rfl
  refine ⟨u, h3, ?_, q⟩
  rw [i1, i2]
  rw [i3] at e3 ⊢
  rw [hbody o _ _ _ h2 _ _ e1 e2 x y rfl rfl]
  exact e3

/-- `logicAnd`: 1 where both inputs are non-zero and 0 elsewhere.  The output may be either input (or both), or any
image that can take the shape without sharing storage with the inputs. -/
theorem C30_and {h : Heap Int} {a b output : Gray} {fa fb : Nat → Nat → Int} (ha : a.Valid h) (hb : b.Valid h)
    (ho : output.Valid h) (hw : a.width = b.width) (hh : a.height = b.height) (hsa : a.Shows h fa) (hsb : b.Shows h fb)
    (hc : output.CanBe a.width a.height) (sa : a.SepOrSame output a.width a.height)
    (sb : b.SepOrSame output a.width a.height) :
    ∃ o h', BinaryImageOps.logicAnd a b output h = .ok o h' ∧
      Produced h h' output o a.width a.height (fun x y => if fa x y ≠ 0 ∧ fb x y ≠ 0 then 1 else 0) ∧
      (a.Sep output a.width a.height → a.Shows h' fa) ∧ (b.Sep output a.width a.height → b.Shows h' fb) := by
  have := logic_run (F := fun x y => if fa x y ≠ 0 ∧ fb x y ≠ 0 then 1 else 0) ha hb ho hw hh hsa hsb hc sa sb
    (body := fun o ia ib io => do
      let va ← M.rd a.buf ia
      if va ≠ 0 then do
        let vb ← M.rd b.buf ib
        M.wr o.buf io (b2i (vb ≠ 0))
      else M.wr o.buf io (b2i false)) (by
    intro o ia ib io h1 va vb e1 e2 x y rfl rfl
    rw [M.bind_ok e1]
    by_cases hz : fa x y = 0
    · rw [if_neg (by omega)]; simp [hz, b2i]
    · rw [if_pos hz, M.bind_ok e2]
      by_cases hz2 : fb x y = 0 <;> simp [hz, hz2, b2i])
  obtain ⟨o, h', e, p⟩ := this
  refine ⟨o, h', ?_, p, fun s => (p.input ha s hsa).2, fun s => (p.input hb s hsb).2⟩
  unfold BinaryImageOps.logicAnd
  rw [M.bind_ok ((C58_two h a.width a.height b.width b.height).1 ⟨hw, hh⟩)]
  exact e

/-- `logicOr`: 1 where at least one input is non-zero and 0 elsewhere. -/
theorem C30_or {h : Heap Int} {a b output : Gray} {fa fb : Nat → Nat → Int} (ha : a.Valid h) (hb : b.Valid h)
    (ho : output.Valid h) (hw : a.width = b.width) (hh : a.height = b.height) (hsa : a.Shows h fa) (hsb : b.Shows h fb)
    (hc : output.CanBe a.width a.height) (sa : a.SepOrSame output a.width a.height)
    (sb : b.SepOrSame output a.width a.height) :
    ∃ o h', BinaryImageOps.logicOr a b output h = .ok o h' ∧
      Produced h h' output o a.width a.height (fun x y => if fa x y ≠ 0 ∨ fb x y ≠ 0 then 1 else 0) ∧
      (a.Sep output a.width a.height → a.Shows h' fa) ∧ (b.Sep output a.width a.height → b.Shows h' fb) := by
  have := logic_run (F := fun x y => if fa x y ≠ 0 ∨ fb x y ≠ 0 then 1 else 0) ha hb ho hw hh hsa hsb hc sa sb
    (body := fun o ia ib io => do
      let va ← M.rd a.buf ia
      if va ≠ 0 then M.wr o.buf io (b2i true)
      else do
        let vb ← M.rd b.buf ib
        M.wr o.buf io (b2i (vb ≠ 0))) (by
    intro o ia ib io h1 va vb e1 e2 x y rfl rfl
    rw [M.bind_ok e1]
    by_cases hz : fa x y = 0
    · rw [if_neg (by omega), M.bind_ok e2]
      by_cases hz2 : fb x y = 0 <;> simp [hz, hz2, b2i]
    · rw [if_pos hz]; simp [hz, b2i])
  obtain ⟨o, h', e, p⟩ := this
  refine ⟨o, h', ?_, p, fun s => (p.input ha s hsa).2, fun s => (p.input hb s hsb).2⟩
  unfold BinaryImageOps.logicOr
  rw [M.bind_ok ((C58_two h a.width a.height b.width b.height).1 ⟨hw, hh⟩)]
  exact e

/-- Inputs of different shape: both throw and change nothing. -/
theorem C30_throws (h : Heap Int) {a b : Gray} (output : Gray) (hn : ¬(a.width = b.width ∧ a.height = b.height)) :
    BinaryImageOps.logicAnd a b output h = .throw h ∧ BinaryImageOps.logicOr a b output h = .throw h := by
  have := (C58_two h a.width a.height b.width b.height).2 hn
  constructor
  · unfold BinaryImageOps.logicAnd; exact M.bind_throw this
  · unfold BinaryImageOps.logicOr; exact M.bind_throw this

/-- In-place use (output is input A, a 2x1 window in a larger array) meets the hypotheses. -/
example : let a := Gray.wrap 0 4 2 1 1 4
    let b : Gray := ⟨1, 2, 2, 1, 0, 2, false⟩
    let h : Heap Int := ⟨[some [9,1,0,9], some [5,5]]⟩
    a.Valid h ∧ b.Valid h ∧ a.SepOrSame a 2 1 ∧ b.SepOrSame a 2 1 ∧ a.CanBe 2 1 ∧
    BinaryImageOps.logicAnd a b a h = .ok a ⟨[some [9,1,0,9], some [5,5]]⟩ :=
  ⟨by decide, by decide, Or.inl rfl, Or.inr (Or.inl (by decide)), Or.inr ⟨rfl, rfl⟩, rfl⟩

/-! ## C31 erosion and dilation -/

theorem sub32_eq {a b : Nat} (hb : b ≤ a) (ha : a < P32) : sub32 a b = a - b := sub32_of_le hb ha

theorem cross_run {h : Heap Int} {input output : Gray} {f : Nat → Nat → Int} (test : Int → Bool) (hv : input.Valid h)
    (ho : output.Valid h) (hf : input.Shows h f) (hc : output.CanBe input.width input.height)
    (hs : input.Sep output input.width input.height) (h0 : 0 < input.width) (h1 : 0 < input.height) :
    ∃ o hm h', BinaryImageOps.cross4 test input output h = .ok o h' ∧
      Reshaped h hm output o input.width input.height ∧
      Painted hm h' o (fun x y => if Interior input.width input.height x y then
        some (b2i (test (f x y + f (x-1) y + f (x+1) y + f x (y-1) + f x (y+1)))) else none) ∧
      input.Valid h' ∧ input.Shows h' f := by
  obtain ⟨o, hm, e1, r⟩ := reshape_spec (0 : Int) ho hv.widthLt hv.heightLt hv.area_lt hc
  obtain ⟨hvm, hpx, hd⟩ := r.input hv hs
  have hw := hv.widthLt
  have hh := hv.heightLt
  let F : Nat → Nat → Int := fun x y => b2i (test (f x y + f (x-1) y + f (x+1) y + f x (y-1) + f x (y+1)))
  have hrun : Spec (M.forRange 1 (sub32 input.height 1) (fun y =>
      M.loop (wrap32 (wrap32 (input.offset + y * input.stride + 1) + sub32 input.width 2) -
        wrap32 (input.offset + y * input.stride + 1)) (fun k => do
        let v0 ← M.rd input.buf (wrap32 (input.offset + y * input.stride + 1) + k)
        let v1 ← M.rd input.buf (sub32 (wrap32 (input.offset + y * input.stride + 1) + k) 1)
        let v2 ← M.rd input.buf (wrap32 (wrap32 (input.offset + y * input.stride + 1) + k + 1))
        let v3 ← M.rd input.buf (sub32 (wrap32 (input.offset + y * input.stride + 1) + k) input.stride)
        let v4 ← M.rd input.buf (wrap32 (wrap32 (input.offset + y * input.stride + 1) + k + input.stride))
        M.wr o.buf (wrap32 (wrap32 (o.offset + y * o.stride + 1) + k)) (b2i (test (v0 + v1 + v2 + v3 + v4)))))) hm
      (fun _ h' => Painted hm h' o (sel (Interior input.width input.height) F)) := by
    rw [sub32_of_le (by omega) hh]
    by_cases hsmall : input.height - 1 ≤ 1
    · exact Spec.of_eq (M.forRange_empty hm hsmall) (Painted.sel_none (fun x y _ _ => by unfold Interior; omega))
    refine Spec.conseq (Spec.forRange (fun y0 h' => Painted hm h' o (sel (fun x y =>
      Interior input.width input.height x y ∧ y < y0) F)) (Painted.sel_none (fun x y _ _ => by unfold Interior; omega))
      (by omega) ?_) ?_
    · intro y h2 hy1 hy2 hp
      have hy : y < input.height := by omega
      have hre := hv.rowEnd_lt hy
      have e_i : wrap32 (input.offset + y * input.stride + 1) = input.offset + y * input.stride + 1 :=
        wrap32_of_lt (by omega)
      by_cases hsw : input.width ≤ 2
      · -- nothing is written in this row
        have : wrap32 (wrap32 (input.offset + y * input.stride + 1) + sub32 input.width 2) -
            wrap32 (input.offset + y * input.stride + 1) = 0 := by
          rw [e_i]
          have hw12 : input.width = 1 ∨ input.width = 2 := by omega
          rcases hw12 with e | e
          · rw [e] at hre ⊢
            unfold sub32 wrap32 P32 at *; omega
          · rw [e] at hre ⊢
            unfold sub32 wrap32 P32 at *; omega
        rw [this]
        refine Spec.of_eq rfl (hp.sel_iff (fun x y' _ _ => ?_))
        unfold Interior; omega
      rw [sub32_of_le (by omega) hw]
      have e_l : wrap32 (wrap32 (input.offset + y * input.stride + 1) + (input.width - 2)) -
            wrap32 (input.offset + y * input.stride + 1) = input.width - 2 := by
        rw [e_i, wrap32_of_lt (by omega)]; omega
      rw [e_l]
      refine Spec.conseq (Spec.loop (fun k h' => Painted hm h' o (sel (fun x y' =>
        Interior input.width input.height x y' ∧ (y' < y ∨ (y' = y ∧ x < k + 1))) F))
        (hp.sel_iff (fun x y' _ _ => by unfold Interior; omega)) ?_) ?_
      · intro k h3 hk hp3
        have hx : k + 1 < input.width := by omega
        have rdpx : ∀ x' y', x' < input.width → y' < input.height → M.rd input.buf (input.addr x' y') h3 = .ok (f x' y') h3 := by
          intro x' y' hx' hy'
          apply M.rd_run
          have := hp3.px_disjoint hd hx' hy'
          unfold Heap.px at this
          rw [this]
          have := hpx x' y'
          unfold Heap.px at this
          rw [this]; exact hf x' y' hx' hy'
        have hup := hv.addr_lt32 (show k + 1 < input.width from hx) (show y + 1 < input.height by omega)
        have hmul1 : (y + 1) * input.stride = y * input.stride + input.stride := Nat.succ_mul _ _
        have hmul2 : y * input.stride = (y - 1) * input.stride + input.stride := by
          have : y = (y - 1) + 1 := by omega
          rw [this, Nat.succ_mul]; simp
        unfold Gray.addr at hup
        have a0 : wrap32 (input.offset + y * input.stride + 1) + k = input.addr (k+1) y := by
          rw [e_i]; unfold Gray.addr; omega
        have a1 : sub32 (wrap32 (input.offset + y * input.stride + 1) + k) 1 = input.addr k y := by
          rw [e_i, sub32_of_le (by omega) (by omega)]; unfold Gray.addr; omega
        have a2 : wrap32 (wrap32 (input.offset + y * input.stride + 1) + k + 1) = input.addr (k+2) y := by
          rw [e_i, wrap32_of_lt (by omega)]; unfold Gray.addr; omega
        have a3 : sub32 (wrap32 (input.offset + y * input.stride + 1) + k) input.stride = input.addr (k+1) (y-1) := by
          rw [e_i, sub32_of_le (by omega) (by omega)]; unfold Gray.addr; omega
        have a4 : wrap32 (wrap32 (input.offset + y * input.stride + 1) + k + input.stride) = input.addr (k+1) (y+1) := by
          rw [e_i, wrap32_of_lt (by omega)]; unfold Gray.addr; omega
        rw [a1, a2, a3, a4, a0]
        refine Spec.bind_eq (rdpx (k+1) y (by omega) hy) ?_
        refine Spec.bind_eq (rdpx k y (by omega) hy) ?_
        refine Spec.bind_eq (rdpx (k+2) y (by omega) hy) ?_
        refine Spec.bind_eq (rdpx (k+1) (y-1) (by omega) (by omega)) ?_
        refine Spec.bind_eq (rdpx (k+1) (y+1) (by omega) (by omega)) ?_
        have hox : k + 1 < o.width := by rw [r.width]; exact hx
        have hoy : y < o.height := by rw [r.height]; exact hy
        have hoe := r.valid.addr_lt32 hox hoy
        unfold Gray.addr at hoe
        refine hp3.sel_wr r.valid hox hoy ?_ rfl ?_
        · rw [wrap32_of_lt (n := o.offset + y * o.stride + 1) (by omega), wrap32_of_lt (by omega)]
          unfold Gray.addr; omega
        · intro x' y' _ _
          unfold Interior; omega
      · intro _ h3 hp3
        exact hp3.sel_iff (fun x y' _ _ => by unfold Interior; omega)
    · intro _ h2 hp2
      exact hp2.sel_iff (fun x y _ _ => by unfold Interior; omega)
  obtain ⟨_, h', e2, p⟩ := hrun
  refine ⟨o, hm, h', ?_, r, p.congr ?_, p.valid r.valid hvm, ?_⟩
  · unfold BinaryImageOps.cross4
    rw [M.bind_ok e1, M.bind_ok e2]; rfl
  · intro x y _ _
    by_cases hi : Interior input.width input.height x y
    · rw [if_pos hi, sel_pos hi]
    · rw [if_neg hi, sel_neg hi]
  · intro x y hx hy
    rw [p.px_disjoint hd hx hy, hpx]; exact hf x y hx hy

/-- Erosion of a binary image: a non-frame pixel of the result is 1 exactly when the pixel and its four neighbours are
all 1.  The frame keeps the contents it has after the output was given its shape, and nothing else is written. -/
theorem C31_erode4 {h : Heap Int} {input output : Gray} {f : Nat → Nat → Int} (hv : input.Valid h)
    (ho : output.Valid h) (hf : input.Shows h f) (hbin : IsBinary input.width input.height f)
    (hc : output.CanBe input.width input.height)
    (hs : input.Sep output input.width input.height) (h0 : 0 < input.width) (h1 : 0 < input.height) :
    ∃ o hm h', ∃ F : Nat → Nat → Int, BinaryImageOps.erode4 input output h = .ok o h' ∧
      Reshaped h hm output o input.width input.height ∧
      Painted hm h' o (fun x y => if Interior input.width input.height x y then some (F x y) else none) ∧
      (∀ x y, Interior input.width input.height x y →
        (F x y = 0 ∨ F x y = 1) ∧ (F x y = 1 ↔ ∀ v, Cross4 f x y v → v = 1)) ∧
      input.Valid h' ∧ input.Shows h' f := by
  obtain ⟨o, hm, h', e, r, p, hv', hf'⟩ := cross_run (fun s => s = 5) hv ho hf hc hs h0 h1
  refine ⟨o, hm, h', _, e, r, p, ?_, hv', hf'⟩
  intro x y ⟨i1, i2, i3, i4⟩
  have b0 := hbin x y (by omega) (by omega)
  have b1 := hbin (x-1) y (by omega) (by omega)
  have b2 := hbin (x+1) y (by omega) (by omega)
  have b3 := hbin x (y-1) (by omega) (by omega)
  have b4 := hbin x (y+1) (by omega) (by omega)
  constructor
  · unfold b2i; split
    · exact Or.inr rfl
    · exact Or.inl rfl
  · unfold b2i Cross4
    constructor
    · intro he
      split at he
      · rename_i hd
        simp only [decide_eq_true_eq] at hd
        intro v hvv; omega
      · omega
    · intro hall
      have c0 := hall _ (Or.inl rfl)
      have c1 := hall _ (Or.inr (Or.inl rfl))
      have c2 := hall _ (Or.inr (Or.inr (Or.inl rfl)))
      have c3 := hall _ (Or.inr (Or.inr (Or.inr (Or.inl rfl))))
      have c4 := hall _ (Or.inr (Or.inr (Or.inr (Or.inr rfl))))
      rw [if_pos]
      simp only [decide_eq_true_eq]; omega

/-- Dilation: 1 exactly when the pixel or one of its four neighbours is 1. -/
theorem C31_dilate4 {h : Heap Int} {input output : Gray} {f : Nat → Nat → Int} (hv : input.Valid h)
    (ho : output.Valid h) (hf : input.Shows h f) (hbin : IsBinary input.width input.height f)
    (hc : output.CanBe input.width input.height)
    (hs : input.Sep output input.width input.height) (h0 : 0 < input.width) (h1 : 0 < input.height) :
    ∃ o hm h', ∃ F : Nat → Nat → Int, BinaryImageOps.dilate4 input output h = .ok o h' ∧
      Reshaped h hm output o input.width input.height ∧
      Painted hm h' o (fun x y => if Interior input.width input.height x y then some (F x y) else none) ∧
      (∀ x y, Interior input.width input.height x y →
        (F x y = 0 ∨ F x y = 1) ∧ (F x y = 1 ↔ ∃ v, Cross4 f x y v ∧ v = 1)) ∧
      input.Valid h' ∧ input.Shows h' f := by
  obtain ⟨o, hm, h', e, r, p, hv', hf'⟩ := cross_run (fun s => s > 0) hv ho hf hc hs h0 h1
  refine ⟨o, hm, h', _, e, r, p, ?_, hv', hf'⟩
  intro x y ⟨i1, i2, i3, i4⟩
  have b0 := hbin x y (by omega) (by omega)
  have b1 := hbin (x-1) y (by omega) (by omega)
  have b2 := hbin (x+1) y (by omega) (by omega)
  have b3 := hbin x (y-1) (by omega) (by omega)
  have b4 := hbin x (y+1) (by omega) (by omega)
  constructor
  · unfold b2i; split
    · exact Or.inr rfl
    · exact Or.inl rfl
  · unfold b2i Cross4
    constructor
    · intro he
      split at he
      · rename_i hd
        simp only [decide_eq_true_eq] at hd
        exact ⟨1, by omega, rfl⟩
      · omega
    · rintro ⟨v, hvv, rfl⟩
      rw [if_pos]
      simp only [decide_eq_true_eq]; omega

/-- An image with zero rows: the row count wraps around and memory outside the image is read. -/
theorem C31_no_rows_refuted :
    ∃ (h : Heap Int) (g o : Gray), g.Valid h ∧ o.Valid h ∧ g.height = 0 ∧ g.width = 3 ∧
      BinaryImageOps.erode4 g o h = .ub := by
  refine ⟨⟨[some [], some []]⟩, ⟨0, 0, 3, 0, 0, 3, false⟩, ⟨1, 0, 3, 0, 0, 3, false⟩, by decide, by decide, rfl, rfl, ?_⟩
  unfold BinaryImageOps.erode4 BinaryImageOps.cross4
  have e1 : Gray.reshape 0 (⟨1, 0, 3, 0, 0, 3, false⟩ : Gray) 3 0 (⟨[some [], some []]⟩ : Heap Int) =
    .ok ⟨1, 0, 3, 0, 0, 3, false⟩ ⟨[some [], some []]⟩ := rfl
  refine (M.bind_ok e1).trans (M.bind_ub ?_)
  unfold M.forRange
  rw [show sub32 (Gray.height ⟨0, 0, 3, 0, 0, 3, false⟩) 1 - 1 = 4294967293 + 1 from by decide]
  apply M.loop_ub_first
  show M.loop (0 + 1) _ _ = _
  apply M.loop_ub_first
  rfl

theorem cross_no_rows {h : Heap Int} {input output : Gray} (test : Int → Bool) (hv : input.Valid h) (ho : output.Valid h)
    (hc : output.CanBe input.width input.height) (hne : input.buf ≠ output.buf) (h0 : input.height = 0) (hw : 3 ≤ input.width)
    (hb : input.offset + input.stride + input.width ≤ P32) (hend : h.cell input.buf (input.offset + input.stride + 1) = none) :
    BinaryImageOps.cross4 test input output h = .ub := by
  obtain ⟨o, hm, e1, r⟩ := reshape_spec (0 : Int) ho hv.widthLt hv.heightLt hv.area_lt hc
  have hc' : hm.cell input.buf (input.offset + input.stride + 1) = none := by rw [r.frame _ _ hne hv.lt_next, hend]
  have hwl := hv.widthLt
  unfold BinaryImageOps.cross4
  refine (M.bind_ok e1).trans (M.bind_ub ?_)
  unfold M.forRange
  rw [show sub32 input.height 1 - 1 = 4294967293 + 1 from by rw [h0]; rfl]
  apply M.loop_ub_first
  have ei : wrap32 (input.offset + (1 + 0) * input.stride + 1) = input.offset + input.stride + 1 := by
    unfold wrap32; rw [Nat.mod_eq_of_lt (by omega)]; omega
  have el : wrap32 (wrap32 (input.offset + (1 + 0) * input.stride + 1) + sub32 input.width 2) -
      wrap32 (input.offset + (1 + 0) * input.stride + 1) = (input.width - 3) + 1 := by
    rw [ei, sub32_of_le (by omega) hwl]
    unfold wrap32
    rw [Nat.mod_eq_of_lt (by omega)]
    omega
  show M.loop (wrap32 (wrap32 (input.offset + (1 + 0) * input.stride + 1) + sub32 input.width 2) -
      wrap32 (input.offset + (1 + 0) * input.stride + 1)) _ _ = _
  rw [el]
  apply M.loop_ub_first
  refine M.bind_ub (M.rd_ub ?_)
  rw [ei]
  exact hc'

/-- An image of at least three columns and no rows, whose array has no cell behind its first row: both operations are undefined. -/
theorem C31_no_rows_undefined {h : Heap Int} {input output : Gray} (hv : input.Valid h) (ho : output.Valid h)
    (hc : output.CanBe input.width input.height) (hne : input.buf ≠ output.buf) (h0 : input.height = 0) (hw : 3 ≤ input.width)
    (hb : input.offset + input.stride + input.width ≤ P32) (hend : h.cell input.buf (input.offset + input.stride + 1) = none) :
    BinaryImageOps.erode4 input output h = .ub ∧ BinaryImageOps.dilate4 input output h = .ub :=
  ⟨cross_no_rows _ hv ho hc hne h0 hw hb hend, cross_no_rows _ hv ho hc hne h0 hw hb hend⟩

example : let g : Gray := ⟨0, 0, 3, 0, 0, 3, false⟩
    let h : Heap Int := ⟨[some [], some []]⟩
    g.Valid h ∧ (⟨1, 0, 3, 0, 0, 3, false⟩ : Gray).Valid h ∧ h.cell 0 (0 + 3 + 1) = none :=
  ⟨by decide, by decide, rfl⟩

/-- A 4x4 binary image meets the hypotheses. -/
example : let g : Gray := ⟨0, 16, 4, 4, 0, 4, false⟩
    let o : Gray := ⟨1, 1, 1, 1, 0, 1, false⟩
    let h : Heap Int := ⟨[some [1,1,1,1, 1,1,1,0, 1,1,1,1, 1,1,1,1], some [0]]⟩
    g.Valid h ∧ o.Valid h ∧ o.CanBe 4 4 ∧ g.Sep o 4 4 ∧
    (∀ i, i < 16 → h.cell 0 i = some 0 ∨ h.cell 0 i = some 1) :=
  ⟨by decide, by decide, Or.inl rfl, Or.inl (by decide), by decide⟩

/-! ## C32 duality and order -/

/-- What C31 says about a result, read as values of the output image. -/
theorem C32_ordered {h hA hB : Heap Int} {input outA outB oA oB : Gray} {f : Nat → Nat → Int} (hv : input.Valid h)
    (hoA : outA.Valid h) (hoB : outB.Valid h) (hf : input.Shows h f) (hbin : IsBinary input.width input.height f)
    (hcA : outA.CanBe input.width input.height) (hcB : outB.CanBe input.width input.height)
    (hsA : input.Sep outA input.width input.height) (hsB : input.Sep outB input.width input.height)
    (rE : BinaryImageOps.erode4 input outA h = .ok oA hA) (rD : BinaryImageOps.dilate4 input outB h = .ok oB hB)
    {x y : Nat} (hi : Interior input.width input.height x y) :
    ∃ e d, hA.px oA x y = some e ∧ hB.px oB x y = some d ∧ e ≤ f x y ∧ f x y ≤ d := by
  have h0 : 0 < input.width := by obtain ⟨_, _, _, _⟩ := hi; omega
  have h1 : 0 < input.height := by obtain ⟨_, _, _, _⟩ := hi; omega
  obtain ⟨o1, m1, h1', F1, e1, r1, p1, q1, _⟩ := C31_erode4 hv hoA hf hbin hcA hsA h0 h1
  obtain ⟨o2, m2, h2', F2, e2, r2, p2, q2, _⟩ := C31_dilate4 hv hoB hf hbin hcB hsB h0 h1
  rw [rE] at e1; cases e1
  rw [rD] at e2; cases e2
  have hb := hbin x y (by obtain ⟨_, _, _, _⟩ := hi; omega) (by obtain ⟨_, _, _, _⟩ := hi; omega)
  refine ⟨F1 x y, F2 x y, ?_, ?_, ?_, ?_⟩
  · rw [p1.pix x y (by rw [r1.width]; obtain ⟨_, _, _, _⟩ := hi; omega) (by rw [r1.height]; obtain ⟨_, _, _, _⟩ := hi; omega), if_pos hi]; rfl
  · rw [p2.pix x y (by rw [r2.width]; obtain ⟨_, _, _, _⟩ := hi; omega) (by rw [r2.height]; obtain ⟨_, _, _, _⟩ := hi; omega), if_pos hi]; rfl
  · obtain ⟨a, b⟩ := q1 x y hi
    rcases a with a | a
    · omega
    · have := b.mp a _ (Or.inl rfl); omega
  · obtain ⟨a, b⟩ := q2 x y hi
    rcases a with a | a
    · rcases hb with hb | hb
      · omega
      · have := b.mpr ⟨1, Or.inl hb.symm, rfl⟩; omega
    · omega

/-- Eroding the complement is the complement of dilating. -/
theorem C32_dual {h h' hA hB : Heap Int} {input comp outA outB oA oB : Gray} {f : Nat → Nat → Int} (hv : input.Valid h)
    (hv' : comp.Valid h') (hw : comp.width = input.width) (hh : comp.height = input.height)
    (hoA : outA.Valid h') (hoB : outB.Valid h) (hf : input.Shows h f) (hf' : comp.Shows h' (fun x y => 1 - f x y))
    (hbin : IsBinary input.width input.height f)
    (hcA : outA.CanBe comp.width comp.height) (hcB : outB.CanBe input.width input.height)
    (hsA : comp.Sep outA comp.width comp.height) (hsB : input.Sep outB input.width input.height)
    (rE : BinaryImageOps.erode4 comp outA h' = .ok oA hA) (rD : BinaryImageOps.dilate4 input outB h = .ok oB hB)
    {x y : Nat} (hi : Interior input.width input.height x y) :
    ∃ e d, hA.px oA x y = some e ∧ hB.px oB x y = some d ∧ e = 1 - d := by
  obtain ⟨i1, i2, i3, i4⟩ := hi
  have hi : Interior input.width input.height x y := ⟨i1, i2, i3, i4⟩
  have hi' : Interior comp.width comp.height x y := by rw [hw, hh]; exact hi
  have hbin' : IsBinary comp.width comp.height (fun x y => 1 - f x y) := by
    intro x y hx hy
    have := hbin x y (by omega) (by omega)
    show 1 - f x y = 0 ∨ 1 - f x y = 1
    omega
  obtain ⟨o1, m1, h1', F1, e1, r1, p1, q1, _⟩ := C31_erode4 hv' hoA hf' hbin' hcA hsA (by omega) (by omega)
  obtain ⟨o2, m2, h2', F2, e2, r2, p2, q2, _⟩ := C31_dilate4 hv hoB hf hbin hcB hsB (by omega) (by omega)
  rw [rE] at e1; cases e1
  rw [rD] at e2; cases e2
  refine ⟨F1 x y, F2 x y, ?_, ?_, ?_⟩
  · rw [p1.pix x y (by rw [r1.width]; omega) (by rw [r1.height]; omega), if_pos hi']; rfl
  · rw [p2.pix x y (by rw [r2.width]; omega) (by rw [r2.height]; omega), if_pos hi]; rfl
  · obtain ⟨a1, b1⟩ := q1 x y hi'
    obtain ⟨a2, b2⟩ := q2 x y hi
    have b0 := hbin x y (by omega) (by omega)
    have c1 := hbin (x-1) y (by omega) (by omega)
    have c2 := hbin (x+1) y (by omega) (by omega)
    have c3 := hbin x (y-1) (by omega) (by omega)
    have c4 := hbin x (y+1) (by omega) (by omega)
    have key : F1 x y = 1 ↔ ¬F2 x y = 1 := by
      rw [b1, b2]
      clear b1 b2
      unfold Cross4
      constructor
      · rintro hall ⟨v, hvv, rfl⟩
        have d0 := hall _ (Or.inl rfl)
        have d1 := hall _ (Or.inr (Or.inl rfl))
        have d2 := hall _ (Or.inr (Or.inr (Or.inl rfl)))
        have d3 := hall _ (Or.inr (Or.inr (Or.inr (Or.inl rfl))))
        have d4 := hall _ (Or.inr (Or.inr (Or.inr (Or.inr rfl))))
        simp only at d0 d1 d2 d3 d4
        omega
      · intro hn v hvv
        have d0 : f x y ≠ 1 := fun e => hn ⟨1, Or.inl e.symm, rfl⟩
        have d1 : f (x-1) y ≠ 1 := fun e => hn ⟨1, Or.inr (Or.inl e.symm), rfl⟩
        have d2 : f (x+1) y ≠ 1 := fun e => hn ⟨1, Or.inr (Or.inr (Or.inl e.symm)), rfl⟩
        have d3 : f x (y-1) ≠ 1 := fun e => hn ⟨1, Or.inr (Or.inr (Or.inr (Or.inl e.symm))), rfl⟩
        have d4 : f x (y+1) ≠ 1 := fun e => hn ⟨1, Or.inr (Or.inr (Or.inr (Or.inr e.symm))), rfl⟩
        clear hn
        simp only at hvv
        omega
    clear b1 b2
    by_cases e : F2 x y = 1
    · have : ¬F1 x y = 1 := fun h => (key.mp h) e
      omega
    · have := key.mpr e
      omega

/-- Both operations are monotone. -/
theorem C32_monotone {h h' hA hB hC hD : Heap Int} {i1 i2 u1 u2 v1 v2 o1 o2 o3 o4 : Gray} {f1 f2 : Nat → Nat → Int}
    (hv1 : i1.Valid h) (hv2 : i2.Valid h') (hw : i2.width = i1.width) (hh : i2.height = i1.height)
    (hf1 : i1.Shows h f1) (hf2 : i2.Shows h' f2) (b1 : IsBinary i1.width i1.height f1) (b2 : IsBinary i2.width i2.height f2)
    (hle : ∀ x y, x < i1.width → y < i1.height → f1 x y ≤ f2 x y)
    (hu1 : u1.Valid h) (hu2 : u2.Valid h') (hv1' : v1.Valid h) (hv2' : v2.Valid h')
    (c1 : u1.CanBe i1.width i1.height) (c2 : u2.CanBe i2.width i2.height)
    (c3 : v1.CanBe i1.width i1.height) (c4 : v2.CanBe i2.width i2.height)
    (s1 : i1.Sep u1 i1.width i1.height) (s2 : i2.Sep u2 i2.width i2.height)
    (s3 : i1.Sep v1 i1.width i1.height) (s4 : i2.Sep v2 i2.width i2.height)
    (r1 : BinaryImageOps.erode4 i1 u1 h = .ok o1 hA) (r2 : BinaryImageOps.erode4 i2 u2 h' = .ok o2 hB)
    (r3 : BinaryImageOps.dilate4 i1 v1 h = .ok o3 hC) (r4 : BinaryImageOps.dilate4 i2 v2 h' = .ok o4 hD)
    {x y : Nat} (hi : Interior i1.width i1.height x y) :
    ∃ a b c d, hA.px o1 x y = some a ∧ hB.px o2 x y = some b ∧ hC.px o3 x y = some c ∧ hD.px o4 x y = some d ∧
      a ≤ b ∧ c ≤ d := by
  obtain ⟨j1, j2, j3, j4⟩ := hi
  have hi : Interior i1.width i1.height x y := ⟨j1, j2, j3, j4⟩
  have hi' : Interior i2.width i2.height x y := by rw [hw, hh]; exact hi
  obtain ⟨_, _, _, F1, e1, q1, p1, k1, _⟩ := C31_erode4 hv1 hu1 hf1 b1 c1 s1 (by omega) (by omega)
  obtain ⟨_, _, _, F2, e2, q2, p2, k2, _⟩ := C31_erode4 hv2 hu2 hf2 b2 c2 s2 (by omega) (by omega)
  obtain ⟨_, _, _, F3, e3, q3, p3, k3, _⟩ := C31_dilate4 hv1 hv1' hf1 b1 c3 s3 (by omega) (by omega)
  obtain ⟨_, _, _, F4, e4, q4, p4, k4, _⟩ := C31_dilate4 hv2 hv2' hf2 b2 c4 s4 (by omega) (by omega)
  rw [r1] at e1; cases e1
  rw [r2] at e2; cases e2
  rw [r3] at e3; cases e3
  rw [r4] at e4; cases e4
  have m0 := hle x y (by omega) (by omega)
  have m1 := hle (x-1) y (by omega) (by omega)
  have m2 := hle (x+1) y (by omega) (by omega)
  have m3 := hle x (y-1) (by omega) (by omega)
  have m4 := hle x (y+1) (by omega) (by omega)
  have n0 := b2 x y (by omega) (by omega)
  have n1 := b2 (x-1) y (by omega) (by omega)
  have n2 := b2 (x+1) y (by omega) (by omega)
  have n3 := b2 x (y-1) (by omega) (by omega)
  have n4 := b2 x (y+1) (by omega) (by omega)
  refine ⟨F1 x y, F2 x y, F3 x y, F4 x y, ?_, ?_, ?_, ?_, ?_, ?_⟩
  · rw [p1.pix x y (by rw [q1.width]; omega) (by rw [q1.height]; omega), if_pos hi]; rfl
  · rw [p2.pix x y (by rw [q2.width]; omega) (by rw [q2.height]; omega), if_pos hi']; rfl
  · rw [p3.pix x y (by rw [q3.width]; omega) (by rw [q3.height]; omega), if_pos hi]; rfl
  · rw [p4.pix x y (by rw [q4.width]; omega) (by rw [q4.height]; omega), if_pos hi']; rfl
  · obtain ⟨x1, y1⟩ := k1 x y hi
    obtain ⟨x2, y2⟩ := k2 x y hi'
    rcases x1 with x1 | x1
    · omega
    · have hall := y1.mp x1
      have d0 := hall _ (Or.inl rfl)
      have d1 := hall _ (Or.inr (Or.inl rfl))
      have d2 := hall _ (Or.inr (Or.inr (Or.inl rfl)))
      have d3 := hall _ (Or.inr (Or.inr (Or.inr (Or.inl rfl))))
      have d4 := hall _ (Or.inr (Or.inr (Or.inr (Or.inr rfl))))
      have : F2 x y = 1 := y2.mpr (fun v hvv => by unfold Cross4 at hvv; omega)
      omega
  · obtain ⟨x1, y1⟩ := k3 x y hi
    obtain ⟨x2, y2⟩ := k4 x y hi'
    rcases x1 with x1 | x1
    · omega
    · obtain ⟨v, hvv, rfl⟩ := y1.mp x1
      have : F4 x y = 1 := by
        refine y2.mpr ⟨1, ?_, rfl⟩
        clear y1 y2
        unfold Cross4 at hvv ⊢; omega
      omega

/-! ## C33 global threshold -/

theorem threshold_run {h : Heap V} {input output : Gray} {f : Nat → Nat → V} (le gt : V → V → Bool) (bit : Bool → V) (z thr : V)
    (down : Bool) (hv : input.Valid h)
    (ho : output.Valid h) (hf : input.Shows h f) (hc : output.CanBe input.width input.height)
    (hs : input.SepOrSame output input.width input.height) :
    ∃ o h', ThresholdOps.threshold le gt bit z input thr down output h = .ok o h' ∧
      Produced h h' output o input.width input.height (fun x y => bit (if down then le (f x y) thr else gt (f x y) thr)) := by
  obtain ⟨o, h1, e1, r⟩ := reshape_spec z ho hv.widthLt hv.heightLt hv.area_lt hc
  have ra := r.readable hv rfl rfl hs hf
  have key : ∀ (t : V → Bool), Spec (M.loop input.height (fun y => M.loop input.width (fun x => do
      let v ← M.rd input.buf (wrap32 (input.offset + y * input.stride) + x)
      M.wr o.buf (wrap32 (o.offset + y * o.stride) + x) (bit (t v))))) h1
      (fun _ h2 => Painted h1 h2 o (fun x y => some (bit (t (f x y))))) := by
    intro t
    rw [show M.loop input.height = M.loop (V := V) o.height from by rw [r.height],
      show M.loop input.width = M.loop (V := V) o.width from by rw [r.width]]
    refine paint_loop2 (fun x y => bit (t (f x y))) ?_
    intro y x h2 hy hx hp
    have hya : y < input.height := by rw [← r.height]; exact hy
    have hxa : x < input.width := by rw [← r.width]; exact hx
    have i1 : wrap32 (input.offset + y * input.stride) + x = input.addr x y := by rw [hv.row_eq hya]; rfl
    rw [i1]
    refine Spec.bind_eq (ra.rd hp hxa hya) ?_
    exact upto_wr r.valid hp hx hy (by rw [r.valid.row_eq hy]; rfl) rfl
  unfold ThresholdOps.threshold
  cases down with
  | true =>
    obtain ⟨_, h2, e2, p⟩ := key (fun v => le v thr)
    refine ⟨o, h2, ?_, r.produced p⟩
    rw [M.bind_ok e1]
    exact M.bind_ok e2
  | false =>
    obtain ⟨_, h2, e2, p⟩ := key (fun v => gt v thr)
    refine ⟨o, h2, ?_, r.produced p⟩
    rw [M.bind_ok e1]
    exact M.bind_ok e2

/-- `threshold(down)`: 1 exactly where the pixel is `<=` the threshold; `threshold(up)`: exactly where it is `>`.
The output has the input's shape, and a separate input is unchanged.  `le`/`gt` are the comparisons of the pixel type. -/
theorem C33_threshold {h : Heap V} {input output : Gray} {f : Nat → Nat → V} (le gt : V → V → Bool) (bit : Bool → V) (z thr : V)
    (down : Bool) (hv : input.Valid h)
    (ho : output.Valid h) (hf : input.Shows h f) (hc : output.CanBe input.width input.height)
    (hs : input.SepOrSame output input.width input.height) :
    ∃ o h', ThresholdOps.threshold le gt bit z input thr down output h = .ok o h' ∧
      Produced h h' output o input.width input.height (fun x y => bit (if down then le (f x y) thr else gt (f x y) thr)) ∧
      (input.Sep output input.width input.height → input.Shows h' f) := by
  obtain ⟨o, h', e, p⟩ := threshold_run le gt bit z thr down hv ho hf hc hs
  exact ⟨o, h', e, p, fun s => (p.input hv s hf).2⟩

/-- For a totally ordered pixel type (no NaN) the two directions are complementary: at every pixel exactly one of the two
results is 1. -/
theorem C33_complementary {h hD hU : Heap V} {input out1 out2 o1 o2 : Gray} {f : Nat → Nat → V} {le gt : V → V → Bool}
    (htot : ∀ a b, gt a b = !le a b) (bit : Bool → V) (z thr : V) (hv : input.Valid h)
    (ho1 : out1.Valid h) (ho2 : out2.Valid h) (hf : input.Shows h f)
    (hc1 : out1.CanBe input.width input.height) (hc2 : out2.CanBe input.width input.height)
    (hs1 : input.SepOrSame out1 input.width input.height) (hs2 : input.SepOrSame out2 input.width input.height)
    (rD : ThresholdOps.threshold le gt bit z input thr true out1 h = .ok o1 hD)
    (rU : ThresholdOps.threshold le gt bit z input thr false out2 h = .ok o2 hU)
    {x y : Nat} (hx : x < input.width) (hy : y < input.height) :
    ∃ b, hD.px o1 x y = some (bit b) ∧ hU.px o2 x y = some (bit (!b)) := by
  obtain ⟨_, _, e1, p1⟩ := threshold_run le gt bit z thr true hv ho1 hf hc1 hs1
  obtain ⟨_, _, e2, p2⟩ := threshold_run le gt bit z thr false hv ho2 hf hc2 hs2
  rw [rD] at e1; cases e1
  rw [rU] at e2; cases e2
  refine ⟨le (f x y) thr, ?_, ?_⟩
  · exact p1.pix x y hx hy
  · rw [p2.pix x y hx hy]; simp [htot]

/-- The filter object gives the same result, for every input it is applied to. -/
theorem C33_filter {h : Heap V} {input output : Gray} (le gt : V → V → Bool) (bit : Bool → V) (z thr : V) (down : Bool)
    {f : Nat → Nat → V} (hv : input.Valid h)
    (ho : output.Valid h) (hf : input.Shows h f) (hc : output.CanBe input.width input.height)
    (hs : input.SepOrSame output input.width input.height) :
    ∃ o h', ThresholdOps.globalFixed le gt bit z thr down input output h = .ok o h' ∧
      Produced h h' output o input.width input.height (fun x y => bit (if down then le (f x y) thr else gt (f x y) thr)) :=
  threshold_run le gt bit z thr down hv ho hf hc hs

example : ThresholdOps.threshold (fun a b => decide (a ≤ b)) (fun a b => decide (b < a)) b2i 0 (Gray.wrap 0 4 2 1 1 4) 5 true
    ⟨1, 0, 0, 0, 0, 0, false⟩ (⟨[some [9,5,6,9], some []]⟩ : Heap Int)
    = .ok ⟨2, 2, 2, 1, 0, 2, false⟩ ⟨[some [9,5,6,9], none, some [1,0]]⟩ ∧
    (∀ a b : Int, decide (b < a) = !decide (a ≤ b)) := by
  refine ⟨rfl, fun a b => ?_⟩
  by_cases e : a ≤ b
  · simp [e]
  · simp [e]; omega

end Boof
