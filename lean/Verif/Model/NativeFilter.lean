import Verif.Model.Native
import Verif.Model.BlocksFloat
import Verif.Model.OtsuFloat
/-
The life of a threshold filter made from Java, boofcpp-jni/src/main/cpp/Native{GlobalFixed,GlobalOtsu,LocalMean,BlockMean,
BlockMinMax,BlockOtsu}.cpp with the classes in org.boofcpp.threshold: `nativeinit` in the constructor, any number of `nativeprocess`, and
`nativedestroy` from `finalize`.

Not modelled: the filter object itself (its parameters are fixed after construction; only its image changes), and changing
`isInteger` or `nativePtr` from Java in between (see `NativeObjects` for that).
-/
namespace Boof
variable {V σ : Type}

/-- A native filter object: what `nativeinit` makes, what `process` does to it, and what `delete` in `nativedestroy` does.
`σ` is the part of the object which changes. -/
structure NativeFilter (V σ : Type) where
  create : M V σ
  process : σ → Gray → Gray → M V (σ × Gray)
  destroy : σ → M V Unit

/-- One call of `process` from Java: the two images, and whether the virtual machine copies their arrays. -/
structure FilterCall where
  input : JImage
  output : JImage
  copyIn : Bool
  copyOut : Bool
deriving DecidableEq, Repr

/-- A sequence of calls of `process` on one filter.  Exceptions are swallowed by `nativeprocess`; the filters throw before
they change anything in the object (threshold_block_filters.h:70-75), so the object stays as it was.  An exception is the local
mean with radius 0, which throws after it has reshaped its storage (binary_ops.h:181-186): such calls are outside this model. -/
def NativeFilter.calls (F : NativeFilter V σ) (z : V) : σ → List FilterCall → J V σ
  | st, [] => pure st
  | st, c :: cs => do
    let r ← nativeThreshold z (F.process st) c.input c.output c.copyIn c.copyOut
    F.calls z (r.getD st) cs

/-- The constructor in Java, the calls, and the finalizer. -/
def NativeFilter.life (F : NativeFilter V σ) (z : V) (cs : List FilterCall) : J V Unit := do
  let st ← J.lift F.create
  let st ← F.calls z st cs
  J.lift (F.destroy st)

/-- A block filter: the statistics are default constructed (threshold_block_filters.h:39, image_types.h:363-364), the sizes of
the blocks are 0 (55-60), and the constructor of the filter sets the number of bands (197, 309, 421). -/
def blockFilter (z : V) (bands : Nat) (process : Interleaved → Gray → Gray → M V Blocks) : NativeFilter V Blocks where
  create := do
    let st ← Interleaved.new z 0 0 0
    let st ← st.setNumberOfBands z bands
    pure ⟨st, 0, 0⟩
  process b i o := process b.stats i o >>= fun b => pure (b, o)
  destroy b := b.stats.destroy

section
variable (K : Type) [Field K] [LinearOrder K] [IsStrictOrderedRing K] [FloorRing K]

/-- NativeGlobalFixed.cpp:10-25 for integer images: the `double` threshold is converted to `U8`. -/
def nativeGlobalFixed (threshold : K) (down : Bool) : NativeFilter Int Int where
  create := M.toInt U8 threshold
  process thr i o := ThresholdOps.globalFixed (fun a b => decide (a ≤ b)) (fun a b => decide (b < a)) b2i 0 thr down i o >>=
    fun o => pure (thr, o)
  destroy _ := pure ()

/-- NativeGlobalOtsu.cpp:8-22 for integer images: both limits are converted to `U8`. -/
def nativeGlobalOtsu (junk : Nat → Int) (minValue maxValue : K) (down : Bool) : NativeFilter Int (Int × Int) where
  create := do
    let a ← M.toInt U8 minValue
    let b ← M.toInt U8 maxValue
    pure (a, b)
  process st i o := ThresholdOps.globalOtsu K U8 junk st.1 st.2 down i o >>= fun o => pure (st, o)
  destroy _ := pure ()

variable {K}

/-- NativeLocalMean.cpp:9-26 for integer images, with `LocalMeanBinaryFilter`, binary_ops.h:264-282; what changes are its two images,
which are default constructed.  They are destroyed in reverse order of their declaration.  The scale is kept as a `float`; here
arithmetic is exact. -/
def nativeLocalMean (junk : Nat → Int) (width : ConfigLength K) (scale : K) (down : Bool) : NativeFilter Int (Gray × Gray) where
  create := do
    let a ← Gray.new 0 0 0
    let b ← Gray.new 0 0 0
    pure (a, b)
  process st i o := ThresholdOps.localMeanFilter 0 (fun a b r s => BlurImageOps.meanInt U8 (intElem U8 junk) a b r s)
    (fun v => (v : K)) (fun b => if b then 1 else 0) width scale down st.1 st.2 i o >>= fun r => pure ((r.2.1, r.2.2), r.1)
  destroy st := do
    st.2.destroy
    st.1.destroy

/-- NativeBlockMean.cpp:9-26 for integer images.  The scale is kept as a `float`; here arithmetic is exact. -/
def nativeBlockMean (length : ConfigLength K) (scale : K) (down useLocal : Bool) : NativeFilter Int Blocks :=
  blockFilter 0 1 (Blocks.process (BlockMean.ops U8 (fun (s : Int) (n : Nat) => scale * s / n + 1 / 2) useLocal down) 0 length)

/-- NativeBlockMinMax.cpp:9-27 for integer images. -/
def nativeBlockMinMax (length : ConfigLength K) (scale : K) (down : Bool) (minimumSpread : K) (useLocal : Bool) :
    NativeFilter Int Blocks :=
  blockFilter 0 2 (Blocks.process (BlockMinMax.ops U8 minimumSpread (fun (m : Int) => scale * m) useLocal down) 0 length)

/-- NativeBlockOtsu.cpp:9-27 for integer images. -/
def nativeBlockOtsu (otsu2 : Bool) (length : ConfigLength K) (tuning scale : K) (down useLocal : Bool) :
    NativeFilter Int Blocks :=
  blockFilter 0 256 (Blocks.process (BlockOtsu.ops ⟨otsu2, tuning, down, scale⟩ useLocal) 0 length)

/-! The same filters for `GrayF32` images (`isInteger` is false). -/

/-- NativeGlobalFixed.cpp:21; `threshold` is the value after its conversion to `float`. -/
def nativeGlobalFixedF (threshold : K) (down : Bool) : NativeFilter K Unit where
  create := pure ()
  process _ i o := ThresholdOps.globalFixed (fun a b => decide (a ≤ b)) (fun a b => decide (b < a)) (fun b => if b then 1 else 0) 0
    threshold down i o >>= fun o => pure ((), o)
  destroy _ := pure ()

/-- NativeGlobalOtsu.cpp:18; the limits are the values after their conversion to `float`. -/
def nativeGlobalOtsuF (junk : Nat → Int) (minValue maxValue : K) (down : Bool) : NativeFilter K Unit where
  create := pure ()
  process _ i o := ThresholdOps.globalOtsuF junk minValue maxValue down i o >>= fun o => pure ((), o)
  destroy _ := pure ()

/-- NativeLocalMean.cpp:22, exact arithmetic. -/
def nativeLocalMeanF (E : GrowArray.Elem K) (width : ConfigLength K) (scale : K) (down : Bool) : NativeFilter K (Gray × Gray) where
  create := do
    let a ← Gray.new 0 0 0
    let b ← Gray.new 0 0 0
    pure (a, b)
  process st i o := ThresholdOps.localMeanFilter 0 (fun a b r s => BlurImageOps.meanFloat E a b r s)
    id (fun b => if b then 1 else 0) width scale down st.1 st.2 i o >>= fun r => pure ((r.2.1, r.2.2), r.1)
  destroy st := do
    st.2.destroy
    st.1.destroy

/-- NativeBlockMean.cpp:23, with any floating point arithmetic `A`. -/
def nativeBlockMeanF (A : MeanOps V) (z : V) (length : ConfigLength K) (down useLocal : Bool) : NativeFilter V Blocks :=
  blockFilter z 1 (Blocks.process (BlockMeanF.ops A useLocal down) z length)

/-- NativeBlockMinMax.cpp:23, with any floating point arithmetic `A`. -/
def nativeBlockMinMaxF [LT V] [DecidableLT V] [LE V] [DecidableLE V] (A : MinMaxOps V) (z : V) (length : ConfigLength K) (down : Bool)
    (minimumSpread : V) (useLocal : Bool) : NativeFilter V Blocks :=
  blockFilter z 2 (Blocks.process (BlockMinMaxF.ops A minimumSpread useLocal down) z length)

/-- NativeBlockOtsu.cpp:23, with any conversion of pixels. -/
def nativeBlockOtsuF (A : OtsuOps V) (z : V) (otsu2 : Bool) (length : ConfigLength K) (tuning scale : K) (down useLocal : Bool) :
    NativeFilter V Blocks :=
  blockFilter z 256 (Blocks.process (BlockOtsuF.ops A (ComputeOtsu.mk otsu2 tuning down scale) useLocal) z length)

end
end Boof
