import Verif.Model.NativeContour
import Verif.Spec.Native
import Verif.Spec.Contour
import Verif.Spec.Jni
/-
What the contour finder does, in terms of Java objects only.
-/
namespace Boof

/-- Settings of the contour finder, as set from Java. -/
structure ChangSettings where
  rule : ConnectRule
  min : Int
  max : Int
  save : Bool

/-- An `int` read as an unsigned number. -/
def asUnsigned (x : Int) : Int := if x < 0 then x + 4294967296 else x

/-- The points of a contour with `n` points are kept. -/
def ChangSettings.Keeps (c : ChangSettings) (external : Bool) (n : Nat) : Prop :=
  (external = true ∨ c.save = true) ∧ asUnsigned c.min ≤ n ∧ (n : Int) < asUnsigned c.max

instance (c : ChangSettings) (x : Bool) (n : Nat) : Decidable (c.Keeps x n) := by unfold ChangSettings.Keeps; infer_instance

/-- What Java holds after the picture `f` has been processed: labels `g`, contours `cs` and their points `j`. -/
structure JavaContours (c : ChangSettings) (w ht : Nat) (f g : Nat → Nat → Int) (cs : List JContour) (j : JavaPacked) : Prop where
  labels : Labelling c.rule w ht f g cs.length
  ids : cs.map (fun c => c.id) = (List.range cs.length).map (fun (k : Nat) => (k : Int) + 1)
  /-- every set of points belongs to exactly one contour, as its external set or one of its internal sets -/
  sets : (cs.flatMap (fun c => c.externalIndex :: c.internalIndexes)).Perm ((List.range j.sets.length).map (fun (k : Nat) => (k : Int)))
  /-- there is one set for every boundary; it is empty or a closed path around the boundary; external sets are on the
  outside of the component with the label of their contour, internal sets are around its holes -/
  paths : ∃ (sides : List ((Nat × Nat) × (Nat × Nat))) (paths : List (List (Nat × Nat))) (external : Nat → Bool),
    OnePerBoundary c.rule (Black w ht f) sides ∧ paths.length = sides.length ∧ j.sets.length = sides.length ∧
    (∀ i s path, sides[i]? = some s → paths[i]? = some path →
      Around c.rule (Black w ht f) s path ∧ (external i = true ↔ Outer c.rule (Black w ht f) s.1 s.2) ∧
      j.decode i = some ((if c.Keeps (external i) path.length then path.map pointOf else []).map some)) ∧
    (∀ k ∈ cs,
      (∃ (i : Nat) (s : (Nat × Nat) × (Nat × Nat)), k.externalIndex = i ∧ sides[i]? = some s ∧ external i = true ∧
        g (s.1.1 - 1) (s.1.2 - 1) = k.id) ∧
      (∀ m ∈ k.internalIndexes, ∃ (i : Nat) (s : (Nat × Nat) × (Nat × Nat)), m = i ∧ sides[i]? = some s ∧ external i = false ∧
        g (s.1.1 - 1) (s.1.2 - 1) = k.id))

/-- A usable Java queue. -/
structure JQueue.Ok (h : Heap Int) (q : JQueue) : Prop where
  array : ∃ l, h.get q.data = some l ∧ l.length < 2147483648 ∧ q.size ≤ l.length
  size : 0 ≤ q.size

/-- What a call needs: a picture of zeros and ones, an image of the same size for the labels, a queue and a collection of
points which belong to the finder.  No array is used twice. -/
structure ChangArgs (h : Heap Int) (l : Labeller) (ji jo : JImage) (q : JQueue) (blocks : Nat → List (List Int))
    (f : Nat → Nat → Int) (fuel : Nat) : Prop where
  images : JArgs h ji jo f
  bits : ∀ x y : Nat, (x : Int) < ji.width → (y : Int) < ji.height → f x y = 0 ∨ f x y = 1
  pixels : 8 * ((ji.width + 2) * (ji.height + 2)) < 4294967296
  stride : jo.stride < 2147483647
  queue : q.Ok h
  apart : ji.data ≠ some q.data ∧ jo.data ≠ some q.data ∧ q.data ≠ l.border.buf ∧
    ji.data ≠ some l.border.buf ∧ jo.data ≠ some l.border.buf
  blocks : ∀ n, (blocks n).length = n ∧ ∀ r ∈ blocks n, r.length = 4000
  fuelEnough : 8 * (ji.width * ji.height) ≤ fuel

/-- The states of a contour finder: it has been constructed, configured and used from Java in any way, and Java has done
anything else in between which does not touch the image inside of the finder. -/
inductive ChangObject : Jvm Int → Labeller → ChangSettings → Prop
  | init {junk : Tracer} {s s' : Jvm Int} {l : Labeller} : nativeChangInit junk s = .ok l s' →
      ChangObject s' l ⟨.four, 0, 2147483647, true⟩
  | setMin {s : Jvm Int} {l : Labeller} {c : ChangSettings} (x : Int) : -2147483648 ≤ x → x < 2147483648 → ChangObject s l c →
      ChangObject s (l.nativeSetMin x) { c with min := x }
  | setMax {s : Jvm Int} {l : Labeller} {c : ChangSettings} (x : Int) : -2147483648 ≤ x → x < 2147483648 → ChangObject s l c →
      ChangObject s (l.nativeSetMax x) { c with max := x }
  | setSave {s : Jvm Int} {l : Labeller} {c : ChangSettings} (b : Bool) : ChangObject s l c →
      ChangObject s (l.nativeSetSave b) { c with save := b }
  | setRule {s : Jvm Int} {l l' : Labeller} {c : ChangSettings} (r : ConnectRule) : ChangObject s l c →
      l.nativeSetRule (if r = .four then 0 else 1) = some l' → ChangObject s l' { c with rule := r }
  | process {s s' : Jvm Int} {l l' : Labeller} {c : ChangSettings} {ji jo : JImage} {q : JQueue} {blocks : Nat → List (List Int)}
      {f : Nat → Nat → Int} {fuel : Nat} {c1 c2 : Bool} {cq : Nat → Bool} {r : ChangResult} : ChangObject s l c →
      ChangArgs s.heap l ji jo q blocks f fuel → nativeChang fuel l ji jo q 4000 blocks c1 c2 cq s = .ok (l', r) s' → ChangObject s' l' c
  | elsewhere {s s' : Jvm Int} {l : Labeller} {c : ChangSettings} : ChangObject s l c →
      (∀ i, s'.heap.cell l.border.buf i = s.heap.cell l.border.buf i) →
      (s'.heap.get l.border.buf).isSome = (s.heap.get l.border.buf).isSome → ChangObject s' l c

end Boof
