import Verif.Proofs.ThreadParts
import Verif.Proofs.StepsFilters
import Verif.Model.Contour
/-
The contour finder as a program of single accesses: it writes its own image and the label image, and reads the picture.
-/
namespace Boof
open M
variable {V α β : Type} {R W : Nat → Nat → Prop}

namespace Fine

theorem timeout {P : α → Prop} : Fine R W P (M.timeout : M V α) := ⟨.timeout, fun _ => rfl, trivial⟩

theorem loopI {I : β → Prop} {n : Nat} {init : β} {body : Nat → β → M V β} (h0 : I init)
    (hb : ∀ i s, i < n → I s → Fine R W I (body i s)) : Fine R W I (M.loopS n init body) := by
  induction n with
  | zero => exact pure h0
  | succ n ih => exact bind (ih (fun i s hi hs => hb i s (by omega) hs)) (fun s hs => hb n s (by omega) hs)

theorem arith (t : IntTy) (v : Int) : Fine R W (fun _ => True) (t.arith v : M V Int) := by
  unfold IntTy.arith
  split
  · split
    · exact pure trivial
    · exact ub
  · exact pure trivial

theorem deref {o : Option α} : Fine R W (fun a => o = some a) (deref o) := by
  cases o with
  | none => exact ub
  | some a => exact pure rfl

theorem index {table : List α} {i : Nat} : Fine R W (fun _ => True) (index table i) := deref.any

theorem liftPoints {r : Res α Unit} : Fine R W (fun _ => True) (liftPoints r) := by
  cases r with
  | ok _ _ => exact pure trivial
  | throw _ => exact throw
  | ub => exact ub
  | timeout => exact timeout

end Fine

/-- The images of a tracer are in the arrays `b` and `l`. -/
def Tracer.In (b l : Nat) (t : Tracer) : Prop := (∀ g, t.binary = some g → g.buf = b) ∧ ∀ g, t.labeled = some g → g.buf = l

section
variable {b l : Nat} (hb : ∀ i, R b i) (hb' : ∀ i, W b i) (hl : ∀ i, R l i) (hl' : ∀ i, W l i)
include hb hb'

theorem Fine.checkBlack (i : Nat) : Fine R W (fun _ => True) (Tracer.checkBlack b i) := by
  unfold Tracer.checkBlack
  refine (Fine.rd (hb i)).bind (fun v _ => ?_)
  split
  · exact Fine.pure trivial
  · exact (Fine.wr (hb' i)).bind (fun _ _ => Fine.pure trivial)

theorem Fine.searchGo (n : Nat) {g : Gray} (hg : g.buf = b) : ∀ (k : Nat) {t : Tracer}, t.In b l →
    Fine R W (fun r => r.2.In b l) (Tracer.searchGo n g k t)
  | 0, t, ht => Fine.pure ht
  | k + 1, t, ht => by
    unfold Tracer.searchGo
    refine Fine.index.bind (fun off _ => ?_)
    refine Fine.bind (P := fun _ => True) ?_ (fun i _ => ?_)
    · unfold Tracer.ptrOff
      split
      · exact Fine.ub
      · exact Fine.pure trivial
    · rw [hg]
      refine (Fine.checkBlack hb hb' i).bind (fun black _ => ?_)
      split
      · exact Fine.pure ht
      · exact Fine.searchGo n hg k (t := { t with dir := (t.dir + 1) % n }) ht

theorem Fine.searchBlack {t : Tracer} (ht : t.In b l) : Fine R W (fun r => r.2.In b l) t.searchBlack := by
  unfold Tracer.searchBlack
  refine Fine.deref.bind (fun g hg => ?_)
  split
  · exact Fine.searchGo hb hb' 4 (ht.1 g hg) 4 ht
  · exact Fine.searchGo hb hb' 8 (ht.1 g hg) 8 ht

omit hb hb' in
theorem Fine.moveToNext {t : Tracer} (ht : t.In b l) : Fine R W (Tracer.In b l) t.moveToNext := by
  unfold Tracer.moveToNext
  refine Fine.deref.bind (fun g _ => Fine.index.bind (fun _ _ => Fine.index.bind (fun _ _ => ?_)))
  dsimp only
  split
  · exact Fine.ub
  · exact Fine.pure ht

omit hb hb' in
include hl' in
theorem Fine.addPoint {t : Tracer} (ht : t.In b l) (points : PackedSet Point2D) (x y : Int) :
    Fine R W (fun _ => True) (t.add points x y) := by
  unfold Tracer.add
  refine Fine.deref.bind (fun g hg => ?_)
  rw [ht.2 g hg]
  refine (Fine.wr (hl' _)).bind (fun _ _ => ?_)
  split
  · exact (Fine.arith _ _).bind (fun _ _ => (Fine.arith _ _).bind (fun _ _ => Fine.liftPoints))
  · exact Fine.pure trivial

include hl' in
theorem Fine.traceLoop (x y d : Nat) : ∀ (fuel : Nat) {t : Tracer} (points : PackedSet Point2D), t.In b l →
    Fine R W (fun r => r.1.In b l) (Tracer.traceLoop x y d fuel t points)
  | 0, t, points, _ => Fine.timeout
  | fuel + 1, t, points, ht => by
    unfold Tracer.traceLoop
    refine (Fine.searchBlack hb hb' ht).bind (fun r hr => ?_)
    dsimp only
    split
    · exact Fine.pure hr
    · refine (Fine.addPoint hl' hr _ _ _).bind (fun points _ => (Fine.moveToNext hr).bind (fun t ht => Fine.index.bind (fun d' _ => ?_)))
      exact Fine.traceLoop x y d fuel (t := { t with dir := d' }) points ht

include hl' in
theorem Fine.trace (fuel : Nat) {t : Tracer} (ht : t.In b l) (points : PackedSet Point2D) (label : Int) (x y : Nat) (external : Bool) :
    Fine R W (fun r => r.1.In b l) (t.trace fuel points label x y external) := by
  unfold Tracer.trace
  refine Fine.deref.bind (fun g _ => Fine.deref.bind (fun g' _ => ?_))
  refine (Fine.addPoint hl' (b := b) ?_ _ _ _).bind (fun points _ => ?_)
  · exact ht
  refine (Fine.searchBlack (l := l) hb hb' ?_).bind (fun r hr => ?_)
  · exact ht
  dsimp only
  split
  · refine (Fine.moveToNext hr).bind (fun t ht => Fine.index.bind (fun d' _ => ?_))
    exact Fine.traceLoop hb hb' hl' x y _ fuel (t := { t with dir := d' }) points ht
  · exact Fine.pure hr

/-- The images of a finder are in the arrays `b` and `l`. -/
def Labeller.In (b l : Nat) (o : Labeller) : Prop := o.border.buf = b ∧ o.tracer.In b l

omit hb hb' in
theorem Labeller.tracer_set (o : Labeller) (t : Tracer) : (o.setTracer t).tracer = t := by
  unfold Labeller.setTracer Labeller.tracer
  cases h : o.rule <;> simp [h]

omit hb hb' in
theorem Labeller.border_set (o : Labeller) (t : Tracer) : (o.setTracer t).border = o.border := by
  unfold Labeller.setTracer
  cases o.rule <;> rfl

omit hb hb' in
theorem Labeller.In.set {o : Labeller} (hg : o.border.buf = b) {t : Tracer} (ht : t.In b l) : (o.setTracer t).In b l :=
  ⟨by rw [o.border_set]; exact hg, by rw [o.tracer_set]; exact ht⟩

omit hb hb' in
theorem Fine.limitTail {o : Labeller} (ho : o.In b l) : Fine R W (Labeller.In b l) o.limitTail := by
  unfold Labeller.limitTail
  split
  · exact Fine.liftPoints.bind (fun _ _ => Fine.liftPoints.bind (fun _ _ => Fine.pure ho))
  · exact Fine.pure ho

include hl'

theorem Fine.handleStep1 (fuel : Nat) {o : Labeller} (ho : o.In b l) (x y : Nat) : Fine R W (Labeller.In b l) (o.handleStep1 fuel x y) := by
  unfold Labeller.handleStep1
  refine Fine.liftPoints.bind (fun p _ => (Fine.trace hb hb' hl' fuel ?_ _ _ _ _ _).bind (fun r hr => ?_))
  · exact ho.2
  · exact Fine.limitTail (Labeller.In.set (by exact ho.1) hr)

include hl

theorem Fine.handleStep2 (fuel : Nat) {o : Labeller} (ho : o.In b l) {g : Gray} (hg : g.buf = l) (x y k label : Nat) :
    Fine R W (Labeller.In b l) (o.handleStep2 fuel g x y k label) := by
  unfold Labeller.handleStep2
  refine Fine.bind (P := fun _ => True) ?_ (fun label _ => ?_)
  · split
    · rw [hg]; exact (Fine.rd (hl _)).bind (fun _ _ => Fine.pure trivial)
    · exact Fine.pure trivial
  · split
    · exact Fine.throw
    · refine Fine.liftPoints.bind (fun p _ => (Fine.trace hb hb' hl' fuel ?_ _ _ _ _ _).bind (fun r hr => ?_))
      · exact ho.2
      · exact Fine.limitTail (Labeller.In.set (by exact ho.1) hr)

omit hb hb' in
theorem Fine.handleStep3 {g : Gray} (hg : g.buf = l) (k : Nat) : Fine R W (fun _ => True) (Labeller.handleStep3 g k) := by
  unfold Labeller.handleStep3
  rw [hg]
  refine (Fine.rd (hl _)).bind (fun v _ => ?_)
  split
  · exact (Fine.rd (hl _)).bind (fun _ _ => Fine.wr (hl' _))
  · exact Fine.pure trivial

theorem Fine.scanPixel (fuel : Nat) {g : Gray} (hg : g.buf = l) (x y i k : Nat) {o : Labeller} (ho : o.In b l) :
    Fine R W (Labeller.In b l) (Labeller.scanPixel fuel g x y i k o) := by
  unfold Labeller.scanPixel
  refine Fine.bind (P := fun _ => True) (by rw [ho.1]; exact Fine.rd (hb _)) (fun bit _ => ?_)
  split
  · exact Fine.pure ho
  refine Fine.bind (P := fun _ => True) (by rw [hg]; exact Fine.rd (hl _)) (fun label _ => ?_)
  refine Fine.bind (P := fun _ => True) ?_ (fun above _ => ?_)
  · split
    · rw [ho.1]; exact Fine.rd (hb _)
    · exact Fine.pure trivial
  refine Fine.bind (P := Labeller.In b l) ?_ (fun o ho => ?_)
  · split
    · exact Fine.handleStep1 hb hb' hl' fuel ho x y
    · exact Fine.pure ho
  refine Fine.bind (P := fun _ => True) (by rw [ho.1]; exact Fine.rd (hb _)) (fun below _ => ?_)
  refine Fine.bind (P := Labeller.In b l) ?_ (fun o ho => ?_)
  · split
    · exact Fine.handleStep2 hb hb' hl hl' fuel ho hg x y k _
    · exact Fine.pure ho
  split
  · exact (Fine.handleStep3 hl hl' hg k).bind (fun _ _ => Fine.pure ho)
  · exact Fine.pure ho

omit hb hb' hl hl' in
theorem Fine.offsets (t : Tracer) (s : Nat) :
    Fine R W (fun _ => True) (match t.rule with | .eight => Tracer.setOffsets8 s | .four => Tracer.setOffsets4 s) := by
  split
  · unfold Tracer.setOffsets8
    exact (Fine.arith _ _).bind (fun _ _ => (Fine.arith _ _).bind (fun _ _ => (Fine.arith _ _).bind (fun _ _ =>
      (Fine.arith _ _).bind (fun _ _ => (Fine.arith _ _).bind (fun _ _ => Fine.pure trivial)))))
  · unfold Tracer.setOffsets4
    exact (Fine.arith _ _).bind (fun _ _ => Fine.pure trivial)

omit hb hb' hl hl' in
theorem Fine.window (g : Gray) (x0 y0 x1 y1 : Nat) : Fine R W (fun u : Gray => u.buf = g.buf ∧ u.width = x1 - x0 ∧ u.height = y1 - y0)
    (g.makeSubimage x0 y0 x1 y1 : M V Gray) := by
  unfold Gray.makeSubimage
  split
  · exact Fine.throw
  · exact Fine.pure ⟨rfl, rfl, rfl⟩

/-- The whole of `process`, when the finder's image and the label image have the right sizes already. -/
theorem Fine.process (fuel : Nat) {o : Labeller} {binary labeled : Gray} (hob : o.border.buf = b) (hlb : labeled.buf = l)
    (hbin : ∀ i, R binary.buf i) (ew : labeled.width = binary.width) (eh : labeled.height = binary.height)
    (bw : o.border.width = binary.width + 2) (bh : o.border.height = binary.height + 2) (hw : binary.width + 2 < P32)
    (hh : binary.height + 2 < P32) : Fine R W (fun r => r.2 = labeled) (o.process fuel binary labeled) := by
  unfold Labeller.process
  rw [reshape_same ew eh, M.pure_after]
  dsimp only
  rw [if_neg (by rw [wrap32_of_lt hw, wrap32_of_lt hh]; omega), M.pure_after]
  refine (Fine.window _ _ _ _ _).bind (fun inner hi => ?_)
  rw [hob, bw, bh, sub32_of_le (Nat.le_add_left 1 _) hw, sub32_of_le (Nat.le_add_left 1 _) hh] at hi
  replace hi : inner.buf = b ∧ inner.width = binary.width ∧ inner.height = binary.height := ⟨hi.1, by omega, by omega⟩
  refine Fine.bind (P := fun _ => True) ?_ (fun _ _ => ?_)
  · unfold Gray.copy
    rw [if_neg (by rw [hi.2.1, hi.2.2]; simp), reshape_same hi.2.1 hi.2.2, M.pure_after]
    refine Fine.bind (P := fun _ => True) (Fine.loop (fun y hy => ?_)) (fun _ _ => Fine.pure trivial)
    unfold memcpy
    split
    · exact Fine.ub
    · exact Fine.loop (fun x hx => (Fine.rd (hbin _)).bind (fun v _ => Fine.wr (by rw [hi.1]; exact hb' _)))
  refine Fine.bind (P := fun _ => True) ?_ (fun _ _ => ?_)
  · unfold ImageMiscOps.fill
    rw [hlb]
    split
    · exact Fine.loop (fun y _ => Fine.loop (fun x _ => Fine.wr (hl' _)))
    · exact Fine.loop (fun y _ => Fine.wr (hl' _))
  refine Fine.liftPoints.bind (fun p _ => ?_)
  refine Fine.bind (P := Tracer.In b l) ?_ (fun t ht => ?_)
  · unfold Tracer.setInputs
    refine (Fine.offsets _ _).bind (fun _ _ => (Fine.offsets _ _).bind (fun _ _ => Fine.pure ⟨fun g hg => ?_, fun g hg => ?_⟩))
    · cases hg; exact hob
    · cases hg; exact hlb
  refine Fine.bind (P := Labeller.In b l) ?_ (fun o' _ => Fine.pure rfl)
  refine Fine.loopI (Labeller.In.set (by exact hob) ht) (fun k o' _ ho' => Fine.loopI ho' (fun j o' _ ho' => ?_))
  exact Fine.scanPixel hb hb' hl hl' fuel hlb _ _ _ _ ho'

end

end Boof
