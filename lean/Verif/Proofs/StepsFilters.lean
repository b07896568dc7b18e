import Verif.Proofs.Threads
import Verif.Model.Blur
import Verif.Model.BinaryOps
/-
The filters as programs of single accesses (`Steps`): each writes the arrays of its output and storage only.
-/
namespace Boof
open M
variable {V S T : Type} {R W : Nat → Prop}

theorem reshape_same {z : V} {g : Gray} {w ht : Nat} (ew : g.width = w) (eh : g.height = ht) :
    (g.reshape z w ht : M V Gray) = Pure.pure g := by unfold Gray.reshape; rw [if_pos ⟨ew, eh⟩]

theorem M.pure_after {α β : Type} (a : α) (f : α → M V β) : ((Pure.pure a : M V α) >>= f) = f a := rfl

theorem Steps.opt {α : Type} (o : Option α) : Steps R W (opt o : M V α) := by
  unfold Boof.opt; split
  · exact Steps.pure _
  · exact Steps.ub

theorem Steps.get (k : Kernel S) (i : Nat) : Steps R W (k.get i : M V S) := by
  unfold Kernel.get; split
  · exact Steps.pure _
  · exact Steps.ub

theorem Steps.put (k : Kernel S) (i : Nat) (v : S) : Steps R W (k.put i v : M V (Kernel S)) := by
  unfold Kernel.put; split
  · exact Steps.pure _
  · exact Steps.ub

theorem Steps.ofGrow (r : Res (GrowArray S) Unit) : Steps R W (ofGrow r : M V (GrowArray S)) := by
  unfold Boof.ofGrow; split
  · exact Steps.pure _
  · exact Steps.throw
  · exact Steps.ub
  · exact Steps.timeout

/-- A rule for a function which is known to be made of steps; extended below. -/
syntax "steps_rule" : tactic
macro_rules | `(tactic| steps_rule) => `(tactic| with_reducible exact Steps.opt _)
macro_rules | `(tactic| steps_rule) => `(tactic| with_reducible exact Steps.get _ _)
macro_rules | `(tactic| steps_rule) => `(tactic| with_reducible exact Steps.put _ _ _)
macro_rules | `(tactic| steps_rule) => `(tactic| with_reducible exact Steps.ofGrow _)

/-- The rules for `Steps`. -/
macro "steps" : tactic => `(tactic| repeat' (first
  | with_reducible exact Steps.pure _ | with_reducible exact Steps.mpure _ | with_reducible exact Steps.ub
  | with_reducible exact Steps.throw | with_reducible exact Steps.timeout | ((with_reducible refine Steps.rd _ ?_); assumption)
  | with_reducible exact Steps.arith _ _ | with_reducible exact Steps.throwIf _
  | ((with_reducible refine Steps.wr _ _ ?_); assumption)
  | steps_rule
  | with_reducible refine Steps.bind ?_ (fun _ => ?_) | with_reducible refine Steps.mbind ?_ (fun _ => ?_)
  | with_reducible refine Steps.loop (fun _ => ?_) | with_reducible refine Steps.loopS (fun _ _ => ?_)
  | with_reducible refine Steps.forRange (fun _ => ?_) | split))

namespace Steps
theorem at1 (k : Kernel S) (i : Nat) : Steps R W (Kernel1D.at' k i : M V S) := by unfold Kernel1D.at'; steps
macro_rules | `(tactic| steps_rule) => `(tactic| with_reducible exact Steps.at1 _ _)

theorem at2 (k : Kernel S) (i j : Nat) : Steps R W (Kernel2D.at' k i j : M V S) := by unfold Kernel2D.at'; steps
macro_rules | `(tactic| steps_rule) => `(tactic| with_reducible exact Steps.at2 _ _ _)

theorem idx (k : Kernel S) (i : Nat) : Steps R W (Kernel1D.idx k i : M V S) := by unfold Kernel1D.idx; steps
macro_rules | `(tactic| steps_rule) => `(tactic| with_reducible exact Steps.idx _ _)

theorem sum (k : Kernel S) (z : S) (add : S → S → Option S) : Steps R W (k.sum z add : M V S) := by unfold Kernel.sum; steps
macro_rules | `(tactic| steps_rule) => `(tactic| with_reducible exact Steps.sum _ _ _)

theorem check (a b c d : Nat) : Steps R W (checkSameShape2 a b c d : M V Unit) := by unfold checkSameShape2; steps
macro_rules | `(tactic| steps_rule) => `(tactic| with_reducible exact Steps.check _ _ _ _)

theorem grayAt {g : Gray} (hr : R g.buf) (x y : Nat) : Steps R W (g.at' x y : M V V) := by unfold Gray.at'; steps
macro_rules | `(tactic| steps_rule) => `(tactic| with_reducible exact Steps.grayAt (by assumption) _ _)

theorem unsafeAt {g : Gray} (hr : R g.buf) (x y : Nat) : Steps R W (g.unsafeAt x y : M V V) := by unfold Gray.unsafeAt; steps
macro_rules | `(tactic| steps_rule) => `(tactic| with_reducible exact Steps.unsafeAt (by assumption) _ _)

theorem setAt {g : Gray} (hw : W g.buf) (x y : Nat) (v : V) : Steps R W (g.setAt x y v) := by unfold Gray.setAt; steps
macro_rules | `(tactic| steps_rule) => `(tactic| with_reducible exact Steps.setAt (by assumption) _ _ _)

theorem setUnsafeAt {g : Gray} (hw : W g.buf) (x y : Nat) (v : V) : Steps R W (g.setUnsafeAt x y v) := by
  unfold Gray.setUnsafeAt; steps
macro_rules | `(tactic| steps_rule) => `(tactic| with_reducible exact Steps.setUnsafeAt (by assumption) _ _ _)

theorem adjust (b : Border V) (x : Int) (n : Nat) : Steps R W (b.adjust x n : M V Int) := by unfold Border.adjust; steps
macro_rules | `(tactic| steps_rule) => `(tactic| with_reducible exact Steps.adjust _ _ _)

theorem outsideGet (b : Border V) {g : Gray} (hr : R g.buf) (x y : Int) : Steps R W (b.outsideGet g x y : M V V) := by
  unfold Border.outsideGet; steps
macro_rules | `(tactic| steps_rule) => `(tactic| with_reducible exact Steps.outsideGet _ (by assumption) _ _)

theorem border (b : Border V) {g : Gray} (hr : R g.buf) (x y : Int) : Steps R W (b.get g x y : M V V) := by
  unfold Border.get; steps
macro_rules | `(tactic| steps_rule) => `(tactic| with_reducible exact Steps.border _ (by assumption) _ _)

theorem memcpy {db sb : Nat} (hr : R sb) (hw : W db) (di si n : Nat) : Steps R W (memcpy db di sb si n : M V Unit) := by
  unfold Boof.memcpy; steps
macro_rules | `(tactic| steps_rule) => `(tactic| with_reducible exact Steps.memcpy (by assumption) (by assumption) _ _ _)

theorem copy {z : V} {g src : Gray} (hr : R src.buf) (hw : W g.buf) (ew : g.width = src.width) (eh : g.height = src.height) :
    Steps R W (g.copy z src : M V Gray) := by
  unfold Gray.copy
  rw [if_neg (by rw [ew, eh]; simp), reshape_same ew eh, M.pure_after]
  steps

section
variable (A : Arith V S) (k : Kernel S) (b : Border V) {input output : Gray} (hr : R input.buf) (hw : W output.buf)
include hr hw

theorem naive_h (fin : S → Option V) : Steps R W (ConvolveNaive.horizontal A fin k b input output) := by
  unfold ConvolveNaive.horizontal; steps
macro_rules | `(tactic| steps_rule) => `(tactic| with_reducible exact Steps.naive_h _ _ _ (by assumption) (by assumption) _)

theorem naive_v (fin : S → Option V) : Steps R W (ConvolveNaive.vertical A fin k b input output) := by
  unfold ConvolveNaive.vertical; steps
macro_rules | `(tactic| steps_rule) => `(tactic| with_reducible exact Steps.naive_v _ _ _ (by assumption) (by assumption) _)

theorem naive_c (fin : S → Option V) : Steps R W (ConvolveNaive.convolve A fin k b input output) := by
  unfold ConvolveNaive.convolve; steps
macro_rules | `(tactic| steps_rule) => `(tactic| with_reducible exact Steps.naive_c _ _ _ (by assumption) (by assumption) _)

theorem inner_h (fin : S → Option V) : Steps R W (ConvolveInner.horizontal A fin k input output) := by
  unfold ConvolveInner.horizontal ConvolveInner.rowSum; steps
macro_rules | `(tactic| steps_rule) => `(tactic| with_reducible exact Steps.inner_h _ _ (by assumption) (by assumption) _)

theorem inner_hF (fin : S → Option V) : Steps R W (ConvolveInner.horizontalF A fin k input output) := by
  unfold ConvolveInner.horizontalF ConvolveInner.rowSum ConvolveInner.subscript; steps
macro_rules | `(tactic| steps_rule) => `(tactic| with_reducible exact Steps.inner_hF _ _ (by assumption) (by assumption) _)

theorem inner_v (fin : S → Option V) : Steps R W (ConvolveInner.vertical A fin k input output) := by
  unfold ConvolveInner.vertical ConvolveInner.columnSum; steps
macro_rules | `(tactic| steps_rule) => `(tactic| with_reducible exact Steps.inner_v _ _ (by assumption) (by assumption) _)

theorem inner_vF (fin : S → Option V) : Steps R W (ConvolveInner.verticalF A fin k input output) := by
  unfold ConvolveInner.verticalF; steps
macro_rules | `(tactic| steps_rule) => `(tactic| with_reducible exact Steps.inner_vF _ _ (by assumption) (by assumption) _)

theorem inner_c (fin : S → Option V) : Steps R W (ConvolveInner.convolve A fin k input output) := by
  unfold ConvolveInner.convolve; steps
macro_rules | `(tactic| steps_rule) => `(tactic| with_reducible exact Steps.inner_c _ _ (by assumption) (by assumption) _)

theorem border_h : Steps R W (ConvolveBorder.horizontal A k b input output) := by
  unfold ConvolveBorder.horizontal ConvolveBorder.rowSum; steps
macro_rules | `(tactic| steps_rule) => `(tactic| with_reducible exact Steps.border_h _ _ _ (by assumption) (by assumption))

theorem border_v : Steps R W (ConvolveBorder.vertical A k b input output) := by
  unfold ConvolveBorder.vertical ConvolveBorder.columnSum; steps
macro_rules | `(tactic| steps_rule) => `(tactic| with_reducible exact Steps.border_v _ _ _ (by assumption) (by assumption))

theorem border_c : Steps R W (ConvolveBorder.convolve A k b input output) := by
  unfold ConvolveBorder.convolve ConvolveBorder.boxSum; steps
macro_rules | `(tactic| steps_rule) => `(tactic| with_reducible exact Steps.border_c _ _ _ (by assumption) (by assumption))

theorem image_h (z : V) (ew : output.width = input.width) (eh : output.height = input.height) :
    Steps R W (ConvolveImage.horizontal z A k b input output) := by
  unfold ConvolveImage.horizontal
  rw [reshape_same ew eh, M.pure_after]; steps

theorem image_v (z : V) (ew : output.width = input.width) (eh : output.height = input.height) :
    Steps R W (ConvolveImage.vertical z A k b input output) := by
  unfold ConvolveImage.vertical
  rw [reshape_same ew eh, M.pure_after]; steps

theorem image_c (z : V) (ew : output.width = input.width) (eh : output.height = input.height) :
    Steps R W (ConvolveImage.convolve z A k b input output) := by
  unfold ConvolveImage.convolve
  rw [reshape_same ew eh, M.pure_after]; steps

theorem nnaive_h : Steps R W (ConvolveNormalizedNaive.horizontal A k input output) := by
  unfold ConvolveNormalizedNaive.horizontal; steps
macro_rules | `(tactic| steps_rule) => `(tactic| with_reducible exact Steps.nnaive_h _ _ (by assumption) (by assumption))

theorem nnaive_v : Steps R W (ConvolveNormalizedNaive.vertical A k input output) := by
  unfold ConvolveNormalizedNaive.vertical; steps
macro_rules | `(tactic| steps_rule) => `(tactic| with_reducible exact Steps.nnaive_v _ _ (by assumption) (by assumption))

theorem jborder_h : Steps R W (ConvolveNormalizedJustBorder.horizontal A k input output) := by
  unfold ConvolveNormalizedJustBorder.horizontal ConvolveNormalizedJustBorder.span; steps
macro_rules | `(tactic| steps_rule) => `(tactic| with_reducible exact Steps.jborder_h _ _ (by assumption) (by assumption))

theorem jborder_v : Steps R W (ConvolveNormalizedJustBorder.vertical A k input output) := by
  unfold ConvolveNormalizedJustBorder.vertical ConvolveNormalizedJustBorder.weight ConvolveNormalizedJustBorder.column; steps
macro_rules | `(tactic| steps_rule) => `(tactic| with_reducible exact Steps.jborder_v _ _ (by assumption) (by assumption))

theorem norm_h : Steps R W (ConvolveNormalized.horizontal A k input output) := by
  unfold ConvolveNormalized.horizontal; steps
macro_rules | `(tactic| steps_rule) => `(tactic| with_reducible exact Steps.norm_h _ _ (by assumption) (by assumption))

theorem norm_hF : Steps R W (ConvolveNormalized.horizontalF A k input output) := by
  unfold ConvolveNormalized.horizontalF; steps
macro_rules | `(tactic| steps_rule) => `(tactic| with_reducible exact Steps.norm_hF _ _ (by assumption) (by assumption))

theorem norm_v : Steps R W (ConvolveNormalized.vertical A k input output) := by
  unfold ConvolveNormalized.vertical; steps
macro_rules | `(tactic| steps_rule) => `(tactic| with_reducible exact Steps.norm_v _ _ (by assumption) (by assumption))

theorem norm_vF : Steps R W (ConvolveNormalized.verticalF A k input output) := by
  unfold ConvolveNormalized.verticalF; steps
macro_rules | `(tactic| steps_rule) => `(tactic| with_reducible exact Steps.norm_vF _ _ (by assumption) (by assumption))

theorem imean_h (B : MeanArith V T) (r : Nat) : Steps R W (ConvolveImageMean.innerHorizontal B input output r) := by
  unfold ConvolveImageMean.innerHorizontal; steps
macro_rules | `(tactic| steps_rule) => `(tactic| with_reducible exact Steps.imean_h (by assumption) (by assumption) _ _)

theorem imean_v (B : MeanArith V T) (r : Nat) : Steps R W (ConvolveImageMean.innerVertical B input output r) := by
  unfold ConvolveImageMean.innerVertical; steps
macro_rules | `(tactic| steps_rule) => `(tactic| with_reducible exact Steps.imean_v (by assumption) (by assumption) _ _)

theorem mean_h (B : MeanArith V T) {mk : Nat → M V (Kernel S)} {conv : Kernel S → Gray → Gray → M V Unit} (hmk : ∀ n, Steps R W (mk n))
    (hconv : ∀ k, Steps R W (conv k input output)) (r : Nat) : Steps R W (ConvolveImageMean.horizontal A B mk conv input output r) := by
  unfold ConvolveImageMean.horizontal; steps <;> first | exact hmk _ | exact hconv _

theorem mean_v (B : MeanArith V T) {mk : Nat → M V (Kernel S)} {conv : Kernel S → Gray → Gray → M V Unit} (hmk : ∀ n, Steps R W (mk n))
    (hconv : ∀ k, Steps R W (conv k input output)) (r : Nat) : Steps R W (ConvolveImageMean.vertical A B mk conv input output r) := by
  unfold ConvolveImageMean.vertical; steps <;> first | exact hmk _ | exact hconv _

end

theorem table1D (E : GrowArray.Elem S) (one : S) (n : Nat) : Steps R W (FactoryKernel.table1D E one n : M V (Kernel S)) := by
  unfold FactoryKernel.table1D Kernel1D.newWidth Kernel1D.new; steps

theorem mean1DInt (E : GrowArray.Elem Int) (n : Nat) : Steps R W (FactoryKernel.mean1DInt E n : M V (Kernel Int)) := table1D E 1 n

theorem mean (z : V) {hor ver : Gray → Gray → Nat → M V Unit} {input output storage : Gray} (r : Nat)
    (hh : Steps R W (hor input storage r)) (hv : Steps R W (ver storage output r))
    (ow : output.width = input.width) (oh : output.height = input.height)
    (sw : storage.width = input.width) (sh : storage.height = input.height) :
    Steps R W (BlurImageOps.mean z hor ver input output r storage) := by
  unfold BlurImageOps.mean
  rw [reshape_same ow oh, reshape_same sw sh]
  split
  · exact throw
  · rw [M.pure_after, M.pure_after]
    exact hh.bind (fun _ => hv.bind (fun _ => pure _))

/-- The images which `mean` returns when they have the right size already. -/
theorem mean_returns (z : V) {hor ver : Gray → Gray → Nat → M V Unit} {input output storage : Gray} (r : Nat)
    (hh : Steps R W (hor input storage r)) (hv : Steps R W (ver storage output r))
    (ow : output.width = input.width) (oh : output.height = input.height)
    (sw : storage.width = input.width) (sh : storage.height = input.height) :
    ∃ m : M V Unit, Steps R W m ∧ BlurImageOps.mean z hor ver input output r storage = m >>= fun _ => Pure.pure (output, storage) := by
  unfold BlurImageOps.mean
  rw [reshape_same ow oh, reshape_same sw sh]
  by_cases h0 : r ≤ 0
  · exact ⟨M.throw, throw, by rw [if_pos h0]; rfl⟩
  · refine ⟨hor input storage r >>= fun _ => ver storage output r, hh.bind (fun _ => hv), ?_⟩
    rw [if_neg h0, M.pure_after, M.pure_after]
    funext h
    show M.bind _ (fun _ => M.bind _ _) h = M.bind (M.bind _ _) _ h
    unfold M.bind
    cases hor input storage r h <;> rfl

theorem meanInt (t : IntTy) (E : GrowArray.Elem Int) {input output storage : Gray} (r : Nat) (hi : R input.buf) (hr : R storage.buf) (ho : W output.buf) (hs : W storage.buf)
    (ow : output.width = input.width) (oh : output.height = input.height)
    (sw : storage.width = input.width) (sh : storage.height = input.height) :
    Steps R W (BlurImageOps.meanInt t E input output r storage) :=
  mean 0 r (mean_h _ hi hs _ (mean1DInt E) (fun k => norm_h _ k hi hs) r) (mean_v _ hr ho _ (mean1DInt E) (fun k => norm_v _ k hr ho) r) ow oh sw sh

theorem meanInt_returns (t : IntTy) (E : GrowArray.Elem Int) {input output storage : Gray} (r : Nat) (hi : R input.buf) (hr : R storage.buf)
    (ho : W output.buf) (hs : W storage.buf) (ow : output.width = input.width) (oh : output.height = input.height)
    (sw : storage.width = input.width) (sh : storage.height = input.height) :
    ∃ m : M Int Unit, Steps R W m ∧ BlurImageOps.meanInt t E input output r storage = m >>= fun _ => Pure.pure (output, storage) :=
  mean_returns 0 r (mean_h _ hi hs _ (mean1DInt E) (fun k => norm_h _ k hi hs) r) (mean_v _ hr ho _ (mean1DInt E) (fun k => norm_v _ k hr ho) r) ow oh sw sh

section
variable {K : Type} [Field K] [LinearOrder K] [IsStrictOrderedRing K] [FloorRing K]

theorem normalize (k : Kernel K) : Steps R W (FactoryKernel.normalize k : M V (Kernel K)) := by
  unfold FactoryKernel.normalize Kernel.sumK; steps

theorem mean1D (E : GrowArray.Elem K) (n : Nat) : Steps R W (FactoryKernel.mean1D E n : M V (Kernel K)) :=
  (table1D E 1 n).bind (fun k => normalize k)

theorem meanFloat (E : GrowArray.Elem K) {input output storage : Gray} (r : Nat) (hi : R input.buf) (hr : R storage.buf) (ho : W output.buf) (hs : W storage.buf)
    (ow : output.width = input.width) (oh : output.height = input.height)
    (sw : storage.width = input.width) (sh : storage.height = input.height) :
    Steps R W (BlurImageOps.meanFloat E input output r storage) :=
  mean 0 r (mean_h _ hi hs _ (mean1D E) (fun k => norm_hF _ k hi hs) r) (mean_v _ hr ho _ (mean1D E) (fun k => norm_vF _ k hr ho) r) ow oh sw sh

theorem meanFloat_returns (E : GrowArray.Elem K) {input output storage : Gray} (r : Nat) (hi : R input.buf) (hr : R storage.buf)
    (ho : W output.buf) (hs : W storage.buf) (ow : output.width = input.width) (oh : output.height = input.height)
    (sw : storage.width = input.width) (sh : storage.height = input.height) :
    ∃ m : M K Unit, Steps R W m ∧ BlurImageOps.meanFloat E input output r storage = m >>= fun _ => Pure.pure (output, storage) :=
  mean_returns 0 r (mean_h _ hi hs _ (mean1D E) (fun k => norm_hF _ k hi hs) r) (mean_v _ hr ho _ (mean1D E) (fun k => norm_vF _ k hr ho) r) ow oh sw sh
end

theorem threshold (le gt : V → V → Bool) (bit : Bool → V) (z thr : V) (down : Bool) {input output : Gray} (hr : R input.buf) (hw : W output.buf)
    (ew : output.width = input.width) (eh : output.height = input.height) :
    Steps R W (ThresholdOps.threshold le gt bit z input thr down output) := by
  unfold ThresholdOps.threshold
  rw [reshape_same ew eh, M.pure_after]
  steps

theorem logicAnd {a b output : Gray} (ha : R a.buf) (hb : R b.buf) (hw : W output.buf) (ew : output.width = a.width) (eh : output.height = a.height) :
    Steps R W (BinaryImageOps.logicAnd a b output) := by
  unfold BinaryImageOps.logicAnd
  rw [reshape_same ew eh]
  refine (check _ _ _ _).bind (fun _ => ?_)
  rw [M.pure_after]
  steps

theorem logicOr {a b output : Gray} (ha : R a.buf) (hb : R b.buf) (hw : W output.buf) (ew : output.width = a.width) (eh : output.height = a.height) :
    Steps R W (BinaryImageOps.logicOr a b output) := by
  unfold BinaryImageOps.logicOr
  rw [reshape_same ew eh]
  refine (check _ _ _ _).bind (fun _ => ?_)
  rw [M.pure_after]
  steps

section
variable {K : Type} [Field K] [LinearOrder K] [IsStrictOrderedRing K] [FloorRing K]

theorem toInt (t : IntTy) (v : K) : Steps R W (M.toInt t v : M V Int) := by unfold M.toInt; steps
macro_rules | `(tactic| steps_rule) => `(tactic| with_reducible exact Steps.toInt _ _)

theorem computeI (c : ConfigLength K) (n : K) : Steps R W (c.computeI n : M V Int) := by
  show Steps R W (if c.compute n ≥ 0 then M.toInt S32 (c.compute n + 1 / 2) else Pure.pure (-1))
  steps
macro_rules | `(tactic| steps_rule) => `(tactic| with_reducible exact Steps.computeI _ _)

theorem gaussian1D (E : GrowArray.Elem K) (ex : K → K) (c sigma : K) (width : Int) :
    Steps R W (FactoryKernel.gaussian1D E ex c sigma width : M V (Kernel K)) := by
  have h1 := normalize (V := V) (R := R) (W := W) (K := K)
  unfold FactoryKernel.gaussian1D FactoryKernel.radiusForSigma FactoryKernel.sigmaForRadius Kernel1D.newWidth Kernel1D.new
  steps <;> exact h1 _

theorem gaussian1DInt (E : GrowArray.Elem K) (EI : GrowArray.Elem Int) (t : IntTy) (ex : K → K) (c sigma : K) (width : Int) :
    Steps R W (FactoryKernel.gaussian1DInt E EI t ex c sigma width : M V (Kernel Int)) := by
  refine (gaussian1D E ex c sigma width).bind (fun k => ?_)
  unfold FactoryKernel.floatToInt1D FactoryKernel.quantum Kernel.elementAbsMax Kernel.elementAbsMin Kernel.scanElems Kernel1D.new
  steps

theorem gaussian (z : V) {mk : M V (Kernel S)} {hor ver : Kernel S → Gray → Gray → M V Unit} {input output storage : Gray}
    (hm : Steps R W mk) (hh : ∀ k, Steps R W (hor k input storage)) (hv : ∀ k, Steps R W (ver k storage output))
    (ow : output.width = input.width) (oh : output.height = input.height)
    (sw : storage.width = input.width) (sh : storage.height = input.height) :
    Steps R W (BlurImageOps.gaussian z mk hor ver input output storage) := by
  unfold BlurImageOps.gaussian
  rw [reshape_same ow oh, reshape_same sw sh, M.pure_after, M.pure_after]
  exact hm.bind (fun k => (hh k).bind (fun _ => (hv k).bind (fun _ => pure _)))

theorem localMean (z : V) {blur : Gray → Gray → Nat → Gray → M V (Gray × Gray)} (toK : V → K) (bit : Bool → V)
    {input output storage1 storage2 : Gray} (width : ConfigLength K) (scale : K) (down : Bool) (hi : R input.buf) (hr : R storage1.buf) (ho : W output.buf)
    (hb : ∀ r, ∃ m : M V Unit, Steps R W m ∧ blur input storage1 r storage2 = m >>= fun _ => Pure.pure (storage1, storage2))
    (ow : output.width = input.width) (oh : output.height = input.height)
    (w1 : storage1.width = input.width) (h1 : storage1.height = input.height)
    (w2 : storage2.width = input.width) (h2 : storage2.height = input.height) :
    Steps R W (ThresholdOps.localMean z blur toK bit input output width scale down storage1 storage2) := by
  unfold ThresholdOps.localMean
  rw [reshape_same ow oh, reshape_same w1 h1, reshape_same w2 h2, M.pure_after, M.pure_after, M.pure_after]
  choose m hm em using hb
  simp only [em]
  have assoc : ∀ {α β γ : Type} (m : M V α) (f : α → M V β) (g : β → M V γ), ((m >>= f) >>= g) = m >>= fun a => f a >>= g := by
    intro α β γ m f g
    funext h
    show M.bind (M.bind m f) g h = M.bind m (fun a => M.bind (f a) g) h
    unfold M.bind
    cases m h <;> rfl
  simp only [assoc, M.pure_after]
  steps <;> exact hm _
end

end Steps
end Boof
