import Verif.Model.PackedSet
import Verif.Model.Config
/-
Transfer of packed contours to Java, boofcpp-jni/src/main/cpp/JNIBoofCPP.cpp:94-142.

Not modelled: the JNI calls themselves (field and method look-up, array pinning); the Java `FastQueue`s are lists, and
`FastQueue.resize(n)` is assumed to provide `n` arrays of `blockLength` ints with arbitrary contents (`old`).
-/
namespace Boof

/-- What Java holds afterwards: the int blocks and `(start, length, block)` of every set. -/
structure JavaPacked where
  blockLength : Nat
  blocks : List (List Int)
  sets : List (Nat × Nat × Nat)
deriving DecidableEq, Repr

/-- The loop JNIBoofCPP.cpp:125-128 after `n` iterations over one block. -/
def javaBlockLoop (src : List Point2D) (dst : List Int) : Nat → Option (List Int)
  | 0 => some dst
  | j+1 => (javaBlockLoop src dst j).bind (fun d =>
      match src[j]? with
      | some p => if j * 2 + 1 < d.length then some ((d.set (j * 2) p.x).set (j * 2 + 1) p.y) else none
      | none => none)

/-- The loop over blocks, JNIBoofCPP.cpp:120-130; `none` is undefined behaviour. -/
def javaBlocks (sizeOfBlock : Nat) : List (List Point2D) → List (List Int) → Option (List (List Int))
  | [], _ => some []
  | src :: rest, dst :: dsts =>
    (javaBlockLoop src dst sizeOfBlock).bind (fun d => (javaBlocks sizeOfBlock rest dsts).map (d :: ·))
  | _ :: _, [] => none

/-- `copy_into_java`, JNIBoofCPP.cpp:94-142.  `old` are the Java int arrays after `resize`.  Result: `ok`, `throw`
(block lengths differ) or `ub`. -/
def copyIntoJava (src : PackedSet Point2D) (blockLength : Nat) (old : List (List Int)) : Res Unit JavaPacked :=
  if blockLength ≠ wrap32 (src.sizeOfBlock * 2) then .throw ()
  else match javaBlocks src.sizeOfBlock src.blocks old with
    | none => .ub
    | some bs => .ok { blockLength := blockLength, blocks := bs,
                       sets := src.setInfo.map (fun s => (wrap32 (s.offset * 2), s.size, s.block)) } ()

end Boof
