import Verif.Proofs.NormalizedRun
/-
C51-C53: normalised convolution.

The specification is `avgAt` in Spec/Convolve.lean: the kernel-weighted average over the part of the kernel which lies on the
line.  `C51_integer` and `C51_exact` write it out in ordinary arithmetic.  `hd` and `hF` say that the arithmetic is defined: no
signed overflow, and no weight of zero.
-/
namespace Boof
open M
variable {V S : Type}

/-! ## C51 -/

/-- `ConvolveNormalized::horizontal` for integral types. -/
theorem C51_horizontal (A : Arith V S) {k : Kernel S} {kw o : Nat} {c : Nat → S}
    {h : Heap V} {input output : Gray} {f F : Nat → Nat → V}
    (hi : input.Valid h) (ho : output.Valid h) (hf : input.Shows h f) (hdis : input.Disjoint output)
    (ew : output.width = input.width) (eh : output.height = input.height)
    (hk : k.Is1D kw o c) (hok : o < kw) (hw : input.width + kw ≤ 2147483648)
    (hd : ∀ x, x < input.width → weightAt A kw o c input.width x ≠ none)
    (hF : ∀ x y, x < input.width → y < input.height →
      avgAt A kw o c input.width (fun i => f i y) x = some (F x y)) :
    ∃ h', ConvolveNormalized.horizontal A k input output h = .ok () h' ∧
      Painted h h' output (fun x y => some (F x y)) ∧ input.Valid h' ∧ input.Shows h' f := by
  obtain ⟨_, h', e, p⟩ := (normalized_horizontal ho ew eh hk hok hw (hdis.pixels hi hf) hd hF).done
    (fun _ _ _ _ => trivial)
  exact ⟨h', e, p, p.reads ho hi hdis hf⟩

/-- `ConvolveNormalized::horizontal` for floating point types. -/
theorem C51_horizontal_float (A : Arith V S) (hA : A.OneLaw) {k : Kernel S} {kw o : Nat} {c : Nat → S}
    {h : Heap V} {input output : Gray} {f F : Nat → Nat → V}
    (hi : input.Valid h) (ho : output.Valid h) (hf : input.Shows h f) (hdis : input.Disjoint output)
    (ew : output.width = input.width) (eh : output.height = input.height)
    (hk : k.Is1D kw o c) (hok : o < kw) (hw : input.width + kw ≤ 2147483648) (hl : input.dataLength < 2147483648)
    (hd : ∀ x, x < input.width → weightAt A kw o c input.width x ≠ none)
    (hF : ∀ x y, x < input.width → y < input.height →
      avgAt A kw o c input.width (fun i => f i y) x = some (F x y)) :
    ∃ h', ConvolveNormalized.horizontalF A k input output h = .ok () h' ∧
      Painted h h' output (fun x y => some (F x y)) ∧ input.Valid h' ∧ input.Shows h' f := by
  obtain ⟨_, h', e, p⟩ := (normalized_horizontalF hA ho ew eh hk hok hw (hdis.pixels hi hf) hl hd hF).done
    (fun _ _ _ _ => trivial)
  exact ⟨h', e, p, p.reads ho hi hdis hf⟩

/-- `ConvolveNormalized::vertical` for integral types.  MISSING for the full property: when the kernel is at least as tall as
the image, every coefficient must be representable in the pixel type (`hnar`), see `C51_vertical_refuted`. -/
theorem C51_vertical_partial (A : Arith V S) {k : Kernel S} {kw o : Nat} {c : Nat → S}
    {h : Heap V} {input output : Gray} {f F : Nat → Nat → V}
    (hi : input.Valid h) (ho : output.Valid h) (hf : input.Shows h f) (hdis : input.Disjoint output)
    (ew : output.width = input.width) (eh : output.height = input.height)
    (hk : k.Is1D kw o c) (hok : o < kw) (hh : input.height + kw ≤ 2147483648)
    (hnar : input.height ≤ kw → ∀ i, i < kw → A.narrow (c i) = c i)
    (hd : ∀ y, y < input.height → weightAt A kw o c input.height y ≠ none)
    (hF : ∀ x y, x < input.width → y < input.height →
      avgAt A kw o c input.height (fun i => f x i) y = some (F x y)) :
    ∃ h', ConvolveNormalized.vertical A k input output h = .ok () h' ∧
      Painted h h' output (fun x y => some (F x y)) ∧ input.Valid h' ∧ input.Shows h' f := by
  obtain ⟨_, h', e, p⟩ := (normalized_vertical ho ew eh hk hok hh (hdis.pixels hi hf) hnar hd hF).done
    (fun _ _ _ _ => trivial)
  exact ⟨h', e, p, p.reads ho hi hdis hf⟩

/-- What `ConvolveNormalized::vertical` for integral types does when the kernel is at least as tall as the image, for every kernel: it
averages with the coefficients converted to the pixel type. -/
theorem C51_vertical_tall (A : Arith V S) {k : Kernel S} {kw o : Nat} {c : Nat → S}
    {h : Heap V} {input output : Gray} {f F : Nat → Nat → V}
    (hi : input.Valid h) (ho : output.Valid h) (hf : input.Shows h f) (hdis : input.Disjoint output)
    (ew : output.width = input.width) (eh : output.height = input.height)
    (hk : k.Is1D kw o c) (hok : o < kw) (hh : input.height + kw ≤ 2147483648) (htall : input.height ≤ kw)
    (hF : ∀ x y, x < input.width → y < input.height →
      avgAt A kw o (fun i => A.narrow (c i)) input.height (fun i => f x i) y = some (F x y)) :
    ∃ h', ConvolveNormalized.vertical A k input output h = .ok () h' ∧
      Painted h h' output (fun x y => some (F x y)) ∧ input.Valid h' ∧ input.Shows h' f := by
  obtain ⟨_, h', e, p⟩ := (normNaive_vertical ho ew eh hk hok (fun _ _ => rfl) hh (hdis.pixels hi hf) hF).done
    (fun _ _ _ _ => trivial)
  refine ⟨h', ?_, p, p.reads ho hi hdis hf⟩
  unfold ConvolveNormalized.vertical checkSameShape2
  rw [if_neg (by omega)]
  show (if k.width ≥ input.height then ConvolveNormalizedNaive.vertical A k input output else _) h = _
  rw [if_pos (by rw [hk.width]; exact htall)]
  exact e

/-- 257 counts as 1 for 8 bit pixels: the averages of 10 and 100 are 55. -/
example : avgAt (intArith U8 U8) 3 1 (fun k => (intArith U8 U8).narrow ([257, 1, 257].getD k 0)) 2 (fun i => [10, 100].getD i 0) 0 = some 55 := by
  decide +kernel

/-- `ConvolveNormalized::vertical` for floating point types. -/
theorem C51_vertical_float (A : Arith V S) (hA : A.OneLaw) {k : Kernel S} {kw o : Nat} {c : Nat → S}
    {h : Heap V} {input output : Gray} {f F : Nat → Nat → V}
    (hi : input.Valid h) (ho : output.Valid h) (hf : input.Shows h f) (hdis : input.Disjoint output)
    (ew : output.width = input.width) (eh : output.height = input.height)
    (hk : k.Is1D kw o c) (hok : o < kw) (hh : input.height + kw ≤ 2147483648) (hl : input.dataLength < 2147483648)
    (hnar : input.height ≤ kw → ∀ i, i < kw → A.narrow (c i) = c i)
    (hd : ∀ y, y < input.height → weightAt A kw o c input.height y ≠ none)
    (hF : ∀ x y, x < input.width → y < input.height →
      avgAt A kw o c input.height (fun i => f x i) y = some (F x y)) :
    ∃ h', ConvolveNormalized.verticalF A k input output h = .ok () h' ∧
      Painted h h' output (fun x y => some (F x y)) ∧ input.Valid h' ∧ input.Shows h' f := by
  obtain ⟨_, h', e, p⟩ := (normalized_verticalF hA ho ew eh hk hok hh (hdis.pixels hi hf) hl hnar hd hF).done
    (fun _ _ _ _ => trivial)
  exact ⟨h', e, p, p.reads ho hi hdis hf⟩

/-- Exact arithmetic meets the hypotheses on `A` and `hd` of the floating point theorems for every kernel. -/
theorem C51_float_hypotheses (K : Type) [Field K] [DecidableEq K] :
    (fieldArith K).OneLaw ∧ (∀ c : K, (fieldArith K).narrow c = c) ∧
      ∀ kw o (c : Nat → K) n x, weightAt (fieldArith K) kw o c n x ≠ none :=
  ⟨oneLaw_exact K, fun _ => rfl, fun _ _ _ _ _ => weight_exact⟩

/-- For integral types the average is `(T + W/2)/W` with the mathematical sums `T` and `W`. -/
theorem C51_integer {t r : IntTy} {kw o n x : Nat} {c v : Nat → Int}
    (hb : winSum kw o (fun i => |c i|) n (fun i => |v i|) x + winWeight kw o (fun i => |c i|) n x ≤ t.signedType.hi)
    (hW : winWeight kw o c n x ≠ 0) :
    avgAt (intArith t r) kw o c n v x =
      some (t.cast ((winSum kw o c n v x + (winWeight kw o c n x).tdiv 2).tdiv (winWeight kw o c n x))) ∧
    weightAt (intArith t r) kw o c n x = some (winWeight kw o c n x) := avg_int hb hW

/-- `(T + W/2)/W` is an integer nearest to `T/W` when `T` is not negative. -/
theorem C51_rounded {T W : Int} (hT : 0 ≤ T) (hW : 0 < W) :
    2 * |T - ((T + W.tdiv 2).tdiv W) * W| ≤ W := by
  have hw2 : W.tdiv 2 = W / 2 := Int.tdiv_eq_ediv_of_nonneg (by omega)
  rw [hw2, Int.tdiv_eq_ediv_of_nonneg (by omega)]
  have e := Int.emod_add_mul_ediv (T + W / 2) W
  have h1 := Int.emod_nonneg (T + W / 2) (by omega : W ≠ 0)
  have h2 := Int.emod_lt_of_pos (T + W / 2) hW
  have e2 : T - (T + W / 2) / W * W = (T + W / 2) % W - W / 2 := by
    rw [Int.mul_comm]; omega
  rw [e2]
  rcases abs_cases ((T + W / 2) % W - W / 2) with ⟨h, _⟩ | ⟨h, _⟩ <;> rw [h] <;> omega

/-- For exact arithmetic in a field the average is `T / W`. -/
theorem C51_exact {K : Type} [Field K] [DecidableEq K] {kw o n x : Nat} {c v : Nat → K}
    (hW : winWeight kw o c n x ≠ 0) :
    avgAt (fieldArith K) kw o c n v x = some (winSum kw o c n v x / winWeight kw o c n x) := avg_exact hW

/-- Images of different shape are refused. -/
theorem C51_throws (A : Arith V S) (k : Kernel S) (h : Heap V) (input output : Gray)
    (hs : input.width ≠ output.width ∨ input.height ≠ output.height) :
    ConvolveNormalized.horizontal A k input output h = .throw h ∧
    ConvolveNormalized.horizontalF A k input output h = .throw h ∧
    ConvolveNormalized.vertical A k input output h = .throw h ∧
    ConvolveNormalized.verticalF A k input output h = .throw h := by
  have : (checkSameShape2 input.width input.height output.width output.height : M V Unit) h = .throw h := by
    unfold checkSameShape2; rw [if_pos hs]; rfl
  exact ⟨M.bind_throw this, M.bind_throw this, M.bind_throw this, M.bind_throw this⟩

/-- The optimised and the naive implementation leave the same memory. -/
theorem C51_agrees_horizontal (A : Arith V S) {k : Kernel S} {kw o : Nat} {c : Nat → S}
    {h : Heap V} {input output : Gray} {f F : Nat → Nat → V}
    (hi : input.Valid h) (ho : output.Valid h) (hf : input.Shows h f) (hdis : input.Disjoint output)
    (ew : output.width = input.width) (eh : output.height = input.height)
    (hk : k.Is1D kw o c) (hok : o < kw) (hw : input.width + kw ≤ 2147483648)
    (hd : ∀ x, x < input.width → weightAt A kw o c input.width x ≠ none)
    (hF : ∀ x y, x < input.width → y < input.height →
      avgAt A kw o c input.width (fun i => f i y) x = some (F x y)) :
    ∃ h', ConvolveNormalized.horizontal A k input output h = .ok () h' ∧
      ConvolveNormalizedNaive.horizontal A k input output h = .ok () h' := by
  obtain ⟨_, h1, e1, p1⟩ := (normalized_horizontal ho ew eh hk hok hw (hdis.pixels hi hf) hd hF).done
    (fun _ _ _ _ => trivial)
  obtain ⟨_, h2, e2, p2⟩ := (normNaive_horizontal ho ew eh hk hok hw (hdis.pixels hi hf) hF).done
    (fun _ _ _ _ => trivial)
  exact ⟨h1, e1, by rw [p1.unique p2]; exact e2⟩

theorem C51_agrees_vertical_partial (A : Arith V S) {k : Kernel S} {kw o : Nat} {c : Nat → S}
    {h : Heap V} {input output : Gray} {f F : Nat → Nat → V}
    (hi : input.Valid h) (ho : output.Valid h) (hf : input.Shows h f) (hdis : input.Disjoint output)
    (ew : output.width = input.width) (eh : output.height = input.height)
    (hk : k.Is1D kw o c) (hok : o < kw) (hh : input.height + kw ≤ 2147483648)
    (hnar : ∀ i, i < kw → A.narrow (c i) = c i)
    (hd : ∀ y, y < input.height → weightAt A kw o c input.height y ≠ none)
    (hF : ∀ x y, x < input.width → y < input.height →
      avgAt A kw o c input.height (fun i => f x i) y = some (F x y)) :
    ∃ h', ConvolveNormalized.vertical A k input output h = .ok () h' ∧
      ConvolveNormalizedNaive.vertical A k input output h = .ok () h' := by
  obtain ⟨_, h1, e1, p1⟩ := (normalized_vertical ho ew eh hk hok hh (hdis.pixels hi hf) (fun _ => hnar) hd hF).done
    (fun _ _ _ _ => trivial)
  obtain ⟨_, h2, e2, p2⟩ := (normNaive_vertical ho ew eh hk hok hnar hh (hdis.pixels hi hf) hF).done
    (fun _ _ _ _ => trivial)
  exact ⟨h1, e1, by rw [p1.unique p2]; exact e2⟩

/-- `ConvolveNormalized::convolve`: horizontally into the workspace, vertically into the output; both images are reshaped. -/
theorem C51_convolve_partial (z : V) (A : Arith V S) (isFloat : Bool) (hA : A.OneLaw)
    {k : Kernel S} {kw o : Nat} {c : Nat → S} {h : Heap V} {input output workspace : Gray} {f G F : Nat → Nat → V}
    (hi : input.Valid h) (ho : output.Valid h) (hws : workspace.Valid h) (hf : input.Shows h f)
    (hc : output.CanBe input.width input.height) (hcw : workspace.CanBe input.width input.height)
    (hs : input.Sep output input.width input.height) (hsw : input.Sep workspace input.width input.height)
    (hne : workspace.buf ≠ output.buf)
    (hk : k.Is1D kw o c) (hok : o < kw) (hw : input.width + kw ≤ 2147483648) (hh : input.height + kw ≤ 2147483648)
    (hl : input.dataLength < 2147483648) (hlw : workspace.dataLength < 2147483648)
    (hnar : input.height ≤ kw → ∀ i, i < kw → A.narrow (c i) = c i)
    (hdx : ∀ x, x < input.width → weightAt A kw o c input.width x ≠ none)
    (hdy : ∀ y, y < input.height → weightAt A kw o c input.height y ≠ none)
    (hG : ∀ x y, x < input.width → y < input.height →
      avgAt A kw o c input.width (fun i => f i y) x = some (G x y))
    (hF : ∀ x y, x < input.width → y < input.height →
      avgAt A kw o c input.height (fun i => G x i) y = some (F x y)) :
    ∃ out work h', ConvolveNormalized.convolve z A isFloat k input output workspace h = .ok (out, work) h' ∧
      Produced2 h h' output out workspace work input.width input.height F G ∧ input.Valid h' ∧ input.Shows h' f := by
  obtain ⟨⟨out, work⟩, h', e, p⟩ := two_stage (z := z) (G := G) (F := F)
    (m1 := fun s => if isFloat then ConvolveNormalized.horizontalF A k input s else ConvolveNormalized.horizontal A k input s)
    (m2 := fun s o => if isFloat then ConvolveNormalized.verticalF A k s o else ConvolveNormalized.vertical A k s o)
    hi ho hws hi.area_lt hi.widthLt hi.heightLt hc hcw hs hsw hne hf
    (fun h2 s' hv ew eh hp => by
      cases isFloat
      · exact normalized_horizontal hv ew eh hk hok hw hp hdx hG
      · exact normalized_horizontalF hA hv ew eh hk hok hw hp hl hdx hG)
    (fun h2 s' o' hv ew eh ew' eh' hlen hp => by
      have hl' : s'.dataLength < 2147483648 := by
        have := hi.area_le
        omega
      cases isFloat
      · exact normalized_vertical hv (by omega) (by omega) hk hok (by omega) hp (by rw [eh]; exact hnar) (by rw [eh]; exact hdy)
          (by rw [ew, eh]; exact hF)
      · exact normalized_verticalF hA hv (by omega) (by omega) hk hok (by omega) hp hl' (by rw [eh]; exact hnar)
          (by rw [eh]; exact hdy) (by rw [ew, eh]; exact hF))
  exact ⟨out, work, h', e, p⟩

/-- The naive vertical code stores the coefficient in a variable of the pixel type: coefficient 257 counts as 1 for 8 bit
images, and coefficient 256 as 0, which ends in a division by zero. -/
theorem C51_vertical_refuted :
    ConvolveNormalized.vertical (intArith U8 U8) ⟨3, 1, ⟨[257, 1, 257], 3, 0, true⟩⟩ ⟨0, 2, 1, 2, 0, 1, false⟩
      ⟨1, 2, 1, 2, 0, 1, false⟩ ⟨[some [10, 100], some [0, 0]]⟩ = .ok () ⟨[some [10, 100], some [55, 55]]⟩ ∧
    avgAt (intArith U8 U8) 3 1 (fun k => [257, 1, 257].getD k 0) 2 (fun i => [10, 100].getD i 0) 0 = some 100 ∧
    ConvolveNormalized.vertical (intArith U8 U8) ⟨1, 0, ⟨[256], 1, 0, true⟩⟩ ⟨0, 1, 1, 1, 0, 1, false⟩
      ⟨1, 1, 1, 1, 0, 1, false⟩ ⟨[some [10], some [0]]⟩ = .ub ∧
    avgAt (intArith U8 U8) 1 0 (fun k => [256].getD k 0) 1 (fun i => [10].getD i 0) 0 = some 10 := by
  decide +kernel

/-- A case that meets the hypotheses, by running the model: 5 × 2 image, kernel `[1,2,3]` at offset 2, so that the two sides
of the border differ. -/
example : ConvolveNormalized.horizontal (intArith U8 U8) ⟨3, 2, ⟨[1, 2, 3], 3, 0, true⟩⟩ ⟨0, 10, 5, 2, 0, 5, false⟩
    ⟨1, 10, 5, 2, 0, 5, false⟩ ⟨[some [10, 20, 30, 40, 50, 0, 0, 90, 0, 0], some (List.replicate 10 7)]⟩ =
    .ok () ⟨[some [10, 20, 30, 40, 50, 0, 0, 90, 0, 0], some [10, 16, 23, 33, 43, 0, 0, 45, 30, 15]]⟩ := by decide +kernel

example : (∀ x : Nat, x < 5 → winSum 3 2 (fun i => |[1, 2, 3].getD i 0|) 5 (fun i => |[10, 20, 30, 40, 50].getD i 0|) x +
      winWeight 3 2 (fun i => |[1, 2, 3].getD i 0|) 5 x ≤ U8.signedType.hi ∧
      winWeight 3 2 (fun i => ([1, 2, 3] : List Int).getD i 0) 5 x ≠ 0) := by decide +kernel

example : ConvolveNormalized.horizontalF (fieldArith Rat) ⟨3, 1, ⟨[1, 2, 1], 3, 0, true⟩⟩ ⟨0, 4, 4, 1, 0, 4, false⟩
    ⟨1, 4, 4, 1, 0, 4, false⟩ ⟨[some [3, 6, 9, 12], some [0, 0, 0, 0]]⟩ =
    .ok () ⟨[some [3, 6, 9, 12], some [4, 6, 9, 11]]⟩ := by decide +kernel

/-! ## C52 -/

/-- Every output pixel of `ConvolveNormalized::horizontal` lies between any bounds of the input pixels under the kernel, and a
constant image stays constant.  `P` bounds the magnitude of the pixels, and the sum of all products must fit the sum type.
MISSING for the full property: the upper bound must not be negative (`0 ≤ hi`), see `C52_range_refuted`. -/
theorem C52_horizontal_partial {t : IntTy} (htb : 0 < t.bits) {k : Kernel Int} {kw o : Nat} {c : Nat → Int}
    {h : Heap Int} {input output : Gray} {f : Nat → Nat → Int} {P : Int}
    (hi : input.Valid h) (ho : output.Valid h) (hf : input.Shows h f) (hdis : input.Disjoint output)
    (ew : output.width = input.width) (eh : output.height = input.height)
    (hk : k.Is1D kw o c) (hok : o < kw) (hw : input.width + kw ≤ 2147483648)
    (hc : ∀ i, i < kw → 0 ≤ c i) (hW : ∀ x, x < input.width → 0 < winWeight kw o c input.width x)
    (hP : ∀ x y, x < input.width → y < input.height → |f x y| ≤ P) (hP0 : 0 ≤ P)
    (hb : sumF kw c * (P + 1) ≤ t.signedType.hi) :
    ∃ h', ConvolveNormalized.horizontal (intArith t t) k input output h = .ok () h' ∧ input.Shows h' f ∧
      ∀ x y, x < input.width → y < input.height → ∃ v, h'.px output x y = some v ∧
        (∀ lo hi, t.InRange lo → t.InRange hi → 0 ≤ hi → (∀ i, Under kw o input.width x i → lo ≤ f i y ∧ f i y ≤ hi) →
          lo ≤ v ∧ v ≤ hi) ∧
        ∀ a, 0 ≤ a → t.InRange a → (∀ i, Under kw o input.width x i → f i y = a) → v = a := by
  have key : ∀ x y, x < input.width → y < input.height → ∃ q, avgAt (intArith t t) kw o c input.width (fun i => f i y) x =
      some (t.cast q) ∧ weightAt (intArith t t) kw o c input.width x ≠ none ∧
      ∀ lo hi, (∀ i, Under kw o input.width x i → lo ≤ f i y ∧ f i y ≤ hi) → lo ≤ q ∧ q ≤ max hi (min (hi + 1) 0) :=
    fun x y hx hy => avg_between hx hok hc (hW x hx) (fun i hi => hP i y hi hy) hb
  have hd : ∀ x, x < input.width → weightAt (intArith t t) kw o c input.width x ≠ none := fun x hx =>
    (avg_between (v := fun _ => 0) hx hok hc (hW x hx) (fun i _ => by rw [abs_zero]; exact hP0) hb).choose_spec.2.1
  obtain ⟨h', e, p, _, hs⟩ := C51_horizontal (intArith t t) (k := k) (kw := kw) (o := o) (c := c) (f := f)
    (F := fun x y => (avgAt (intArith t t) kw o c input.width (fun i => f i y) x).getD 0)
    hi ho hf hdis ew eh hk hok hw hd
    (fun x y hx hy => by obtain ⟨q, e, _⟩ := key x y hx hy; rw [e]; rfl)
  have main : ∀ x y, x < input.width → y < input.height → ∃ v, h'.px output x y = some v ∧
        (∀ lo hi, t.InRange lo → t.InRange hi → 0 ≤ hi → (∀ i, Under kw o input.width x i → lo ≤ f i y ∧ f i y ≤ hi) →
          lo ≤ v ∧ v ≤ hi) := by
    intro x y hx hy
    obtain ⟨q, e1, _, e3⟩ := key x y hx hy
    refine ⟨t.cast q, ?_, fun lo hi rl rh h0 hu => ?_⟩
    · rw [p.pix x y (by omega) (by omega), e1]; rfl
    · obtain ⟨a, b⟩ := e3 lo hi hu
      unfold IntTy.InRange at rl rh
      rw [IntTy.cast_of_inRange htb ⟨by omega, by omega⟩]
      omega
  refine ⟨h', e, hs, fun x y hx hy => ?_⟩
  obtain ⟨v, e1, e2⟩ := main x y hx hy
  refine ⟨v, e1, e2, fun a h0 ha hu => ?_⟩
  have := e2 a a ha ha h0 (fun i hi => by rw [hu i hi]; omega)
  omega

/-- A constant image of -1 becomes 0: rounding adds half the weight also to negative sums. -/
theorem C52_range_refuted :
    ConvolveNormalized.horizontal (intArith S16 S16) ⟨3, 1, ⟨[1, 1, 1], 3, 0, true⟩⟩ ⟨0, 4, 4, 1, 0, 4, false⟩
      ⟨1, 4, 4, 1, 0, 4, false⟩ ⟨[some [-1, -1, -1, -1], some [7, 7, 7, 7]]⟩ =
      .ok () ⟨[some [-1, -1, -1, -1], some [0, 0, 0, 0]]⟩ := by decide +kernel

/-- For negative pixels the result is off by at most one. -/
theorem C52_negative {t r : IntTy} {kw o n x : Nat} {c v : Nat → Int} {P : Int} (hx : x < n) (ho : o < kw)
    (hc : ∀ i, i < kw → 0 ≤ c i) (hW : 0 < winWeight kw o c n x)
    (hv : ∀ i, i < n → |v i| ≤ P) (hb : sumF kw c * (P + 1) ≤ t.signedType.hi) :
    ∃ q, avgAt (intArith t r) kw o c n v x = some (t.cast q) ∧
      ∀ lo hi, (∀ i, Under kw o n x i → lo ≤ v i ∧ v i ≤ hi) → lo ≤ q ∧ q ≤ hi + 1 := by
  obtain ⟨q, e, _, h⟩ := avg_between (t := t) (r := r) hx ho hc hW hv hb
  exact ⟨q, e, fun lo hi hu => by have := h lo hi hu; omega⟩

example : sumF 3 (fun i => ([1, 2, 3] : List Int).getD i 0) * (255 + 1) ≤ U8.signedType.hi ∧
    (∀ x : Nat, x < 5 → 0 < winWeight 3 2 (fun i => ([1, 2, 3] : List Int).getD i 0) 5 x) := by decide +kernel

/-! ## C53 -/

/-- Convolving the transposed image vertically gives the transpose of the horizontal convolution.  MISSING for the full
property: the coefficients must be representable in the pixel type, see `C53_transpose_refuted`. -/
theorem C53_transpose_partial (A : Arith V S) {k : Kernel S} {kw o : Nat} {c : Nat → S}
    {h hT : Heap V} {input output inputT outputT : Gray} {f F : Nat → Nat → V}
    (hi : input.Valid h) (ho : output.Valid h) (hf : input.Shows h f) (hdis : input.Disjoint output)
    (ew : output.width = input.width) (eh : output.height = input.height)
    (hiT : inputT.Valid hT) (hoT : outputT.Valid hT) (hfT : inputT.Shows hT (fun x y => f y x))
    (hdisT : inputT.Disjoint outputT) (ewT : outputT.width = inputT.width) (ehT : outputT.height = inputT.height)
    (tw : inputT.width = input.height) (th : inputT.height = input.width)
    (hk : k.Is1D kw o c) (hok : o < kw) (hw : input.width + kw ≤ 2147483648)
    (hnar : ∀ i, i < kw → A.narrow (c i) = c i)
    (hF : ∀ x y, x < input.width → y < input.height →
      avgAt A kw o c input.width (fun i => f i y) x = some (F x y)) :
    ∃ h' hT', ConvolveNormalizedNaive.horizontal A k input output h = .ok () h' ∧
      ConvolveNormalizedNaive.vertical A k inputT outputT hT = .ok () hT' ∧
      ∀ x y, x < input.width → y < input.height → hT'.px outputT y x = h'.px output x y := by
  obtain ⟨_, h1, e1, p1⟩ := (normNaive_horizontal ho ew eh hk hok hw (hdis.pixels hi hf) hF).done
    (fun _ _ _ _ => trivial)
  obtain ⟨_, h2, e2, p2⟩ := (normNaive_vertical (F := fun x y => F y x) hoT ewT ehT hk hok hnar (by omega)
    (hdisT.pixels hiT hfT) (fun x y hx hy => by rw [th]; exact hF y x (by omega) (by omega))).done
    (fun _ _ _ _ => trivial)
  exact ⟨h1, h2, e1, e2, fun x y hx hy => by
    rw [p1.pix x y (by omega) (by omega), p2.pix y x (by omega) (by omega)]; rfl⟩

/-- The transposed image for every kernel: the column code with kernel `k` does what the row code does with the coefficients of `k` converted
to the pixel type (`kd`). -/
theorem C53_transpose_narrowed (A : Arith V S) {k kd : Kernel S} {kw o : Nat} {c : Nat → S}
    {h hT : Heap V} {input output inputT outputT : Gray} {f F : Nat → Nat → V}
    (hi : input.Valid h) (ho : output.Valid h) (hf : input.Shows h f) (hdis : input.Disjoint output)
    (ew : output.width = input.width) (eh : output.height = input.height)
    (hiT : inputT.Valid hT) (hoT : outputT.Valid hT) (hfT : inputT.Shows hT (fun x y => f y x))
    (hdisT : inputT.Disjoint outputT) (ewT : outputT.width = inputT.width) (ehT : outputT.height = inputT.height)
    (tw : inputT.width = input.height) (th : inputT.height = input.width)
    (hk : k.Is1D kw o c) (hkd : kd.Is1D kw o (fun i => A.narrow (c i))) (hok : o < kw) (hw : input.width + kw ≤ 2147483648)
    (hF : ∀ x y, x < input.width → y < input.height →
      avgAt A kw o (fun i => A.narrow (c i)) input.width (fun i => f i y) x = some (F x y)) :
    ∃ h' hT', ConvolveNormalizedNaive.horizontal A kd input output h = .ok () h' ∧
      ConvolveNormalizedNaive.vertical A k inputT outputT hT = .ok () hT' ∧
      ∀ x y, x < input.width → y < input.height → hT'.px outputT y x = h'.px output x y := by
  obtain ⟨_, h1, e1, p1⟩ := (normNaive_horizontal ho ew eh hkd hok hw (hdis.pixels hi hf) hF).done
    (fun _ _ _ _ => trivial)
  obtain ⟨_, h2, e2, p2⟩ := (normNaive_vertical (F := fun x y => F y x) hoT ewT ehT hk hok (fun _ _ => rfl) (by omega)
    (hdisT.pixels hiT hfT) (fun x y hx hy => by rw [th]; exact hF y x (by omega) (by omega))).done
    (fun _ _ _ _ => trivial)
  exact ⟨h1, h2, e1, e2, fun x y hx hy => by
    rw [p1.pix x y (by omega) (by omega), p2.pix y x (by omega) (by omega)]; rfl⟩

example : ConvolveNormalizedNaive.horizontal (intArith U8 U8) ⟨3, 1, ⟨[1, 1, 1], 3, 0, true⟩⟩ ⟨0, 2, 2, 1, 0, 2, false⟩
      ⟨1, 2, 2, 1, 0, 2, false⟩ ⟨[some [10, 100], some [0, 0]]⟩ = .ok () ⟨[some [10, 100], some [55, 55]]⟩ := by decide +kernel

/-- Kernel `[257,1,257]` on the 8 bit line `10, 100`: a row gives 100 at the left, a column gives 55 at the top. -/
theorem C53_transpose_refuted :
    ConvolveNormalizedNaive.horizontal (intArith U8 U8) ⟨3, 1, ⟨[257, 1, 257], 3, 0, true⟩⟩ ⟨0, 2, 2, 1, 0, 2, false⟩
      ⟨1, 2, 2, 1, 0, 2, false⟩ ⟨[some [10, 100], some [0, 0]]⟩ = .ok () ⟨[some [10, 100], some [100, 10]]⟩ ∧
    ConvolveNormalizedNaive.vertical (intArith U8 U8) ⟨3, 1, ⟨[257, 1, 257], 3, 0, true⟩⟩ ⟨0, 2, 1, 2, 0, 1, false⟩
      ⟨1, 2, 1, 2, 0, 1, false⟩ ⟨[some [10, 100], some [0, 0]]⟩ = .ok () ⟨[some [10, 100], some [55, 55]]⟩ := by
  decide +kernel

example : ∀ i, i < 3 → (intArith U8 U8).narrow (([1, 2, 3] : List Int).getD i 0) = ([1, 2, 3] : List Int).getD i 0 := by
  decide +kernel

end Boof
