import Verif.Proofs.Print
import Verif.Props.Images
import Verif.Spec.Kernel
/-
C87: printed pictures and kernels show what they are made of.
-/
namespace Boof
open M
variable {V S : Type}

/-! ## Pictures -/

/-- `print(image)` prints the size and every pixel in its place, and changes nothing. -/
theorem C87_print {h : Heap V} {g : Gray} {f : Nat → Nat → V} {fmt : V → Option Text} {txt : Nat → Nat → Text}
    (hv : g.Valid h) (hf : g.Shows h f) (hw : g.width < 2147483648) (hh : g.height < 2147483648)
    (ht : ∀ x y, x < g.width → y < g.height → fmt (f x y) = some (txt x y)) :
    printImage fmt g h = .ok (imageText g.width g.height txt) h := by
  unfold printImage
  refine (M.bind_ok (loopS_text (fun y => "[ ".toList ++ (List.range g.width).flatMap (fun x => txt x y ++ " ".toList) ++ "]\n".toList)
    (fun y s hy => ?_) _)).trans ?_
  · refine (M.bind_ok (loopS_text (fun x => txt x y ++ " ".toList) (fun x s hx => ?_) _)).trans ?_
    · refine (M.bind_ok (hv.at_run hf hx hy)).trans ?_
      rw [ht x y hx hy]
      refine (M.bind_ok (m := opt (some _)) rfl).trans ?_
      rw [List.append_assoc]; rfl
    · simp only [List.append_assoc]; rfl
  · rw [fmtDec_nat hw, fmtDec_nat hh]
    unfold imageText
    simp only [List.append_assoc]; rfl

/-- Pictures of integral pixels of at most 32 bits: every pixel appears as its hexadecimal digits, at least two of them and no more than
are needed, a negative one as the number modulo 2^32. -/
theorem C87_print_int {t : IntTy} (ht : t ∈ [U8, U16, S16, S32]) {h : Heap Int} {g : Gray} {f : Nat → Nat → Int}
    (hv : g.Valid h) (hf : g.Shows h f) (hw : g.width < 2147483648) (hh : g.height < 2147483648) :
    printImage (pixelHex t) g h = .ok (imageText g.width g.height (fun x y => fmtHex (toU32 (f x y)))) h ∧
    ∀ x y, numberOf 16 (fmtHex (toU32 (f x y))) = toU32 (f x y) ∧ 2 ≤ (fmtHex (toU32 (f x y))).length ∧
      ∀ k, 2 ≤ k → ((fmtHex (toU32 (f x y))).length ≤ k ↔ toU32 (f x y) < 16 ^ k) := by
  have hb : t.bits ≤ 32 := by
    simp only [List.mem_cons, List.not_mem_nil, or_false] at ht
    rcases ht with rfl | rfl | rfl | rfl <;> decide
  refine ⟨C87_print hv hf hw hh (fun x y _ _ => by unfold pixelHex; rw [if_pos hb]), fun x y => ⟨numberOf_fmtHex _, ?_⟩⟩
  unfold fmtHex
  rw [List.length_append, List.length_replicate]
  refine ⟨by omega, fun k hk => ?_⟩
  rw [← Nat.length_toDigits_le_iff (b := 16) (by decide) (by omega)]
  omega

/-- Two pictures which print alike are equal: same size, same pixels. -/
theorem C87_print_faithful {t : IntTy} (ht : t ∈ [U8, U16, S16, S32]) {h1 h2 : Heap Int} {a b : Gray} {f g : Nat → Nat → Int}
    (ha : a.Valid h1) (hb : b.Valid h2) (hf : a.Shows h1 f) (hg : b.Shows h2 g)
    (haw : a.width < 2147483648) (hah : a.height < 2147483648) (hbw : b.width < 2147483648) (hbh : b.height < 2147483648)
    (fr : ∀ x y, x < a.width → y < a.height → t.InRange (f x y)) (gr : ∀ x y, x < b.width → y < b.height → t.InRange (g x y))
    {text : Text} (e1 : printImage (pixelHex t) a h1 = .ok text h1) (e2 : printImage (pixelHex t) b h2 = .ok text h2) :
    a.width = b.width ∧ a.height = b.height ∧ ∀ x y, x < a.width → y < a.height → f x y = g x y := by
  rw [(C87_print_int ht ha hf haw hah).1] at e1
  rw [(C87_print_int ht hb hg hbw hbh).1] at e2
  have e : imageText a.width a.height (fun x y => fmtHex (toU32 (f x y))) =
      imageText b.width b.height (fun x y => fmtHex (toU32 (g x y))) := by
    have h1 := Res.ok.inj e1
    have h2 := Res.ok.inj e2
    rw [h1.1, h2.1]
  obtain ⟨ew, eh, ep⟩ := imageText_inj (fun _ _ c hc => (fmtHex_hex c hc).num) (fun _ _ c hc => (fmtHex_hex c hc).num) e
  refine ⟨ew, eh, fun x y hx' hy' => ?_⟩
  have en : toU32 (f x y) = toU32 (g x y) := by
    rw [← numberOf_fmtHex (toU32 (f x y)), ep x y hx' hy', numberOf_fmtHex]
  have r1 := fr x y hx' hy'
  have r2 := gr x y (by omega) (by omega)
  have hr : ∀ v, t.InRange v → -2147483648 ≤ v ∧ v ≤ 2147483647 := by
    simp only [List.mem_cons, List.not_mem_nil, or_false] at ht
    rcases ht with rfl | rfl | rfl | rfl <;> intro v hv <;> unfold IntTy.InRange IntTy.lo IntTy.hi at hv <;>
      simp only [U8, U16, S16, S32] at hv <;> norm_num at hv <;> omega
  have b1 := hr _ r1
  have b2 := hr _ r2
  unfold toU32 P32 at en
  omega

/-- A picture of 64-bit pixels cannot be printed: `%x` does not take such numbers. -/
theorem C87_print_long_refuted {h : Heap Int} {g : Gray} {f : Nat → Nat → Int} (hv : g.Valid h) (hf : g.Shows h f)
    (hw : 0 < g.width) (hh : 0 < g.height) : printImage (pixelHex S64) g h = .ub := by
  unfold printImage
  refine M.bind_ub ?_
  obtain ⟨n, hn⟩ : ∃ n, g.height = n + 1 := ⟨g.height - 1, by omega⟩
  obtain ⟨m, hm⟩ : ∃ m, g.width = m + 1 := ⟨g.width - 1, by omega⟩
  have first : ∀ {n : Nat} {s : Text} {body : Nat → Text → M Int Text}, (∀ s, body 0 s h = .ub) →
      M.loopS (n + 1) s body h = .ub := by
    intro n s body hb
    induction n with
    | zero => exact hb s
    | succ n ih => exact M.bind_ub (m := M.loopS (n + 1) s body) ih
  rw [hn]
  refine first (fun s => M.bind_ub ?_)
  rw [hm]
  refine first (fun s => ?_)
  exact (M.bind_ok (hv.at_run hf (by omega) (by omega))).trans (M.bind_ub rfl)

/-- A 3 × 2 picture: the hypotheses hold, and this is the text. -/
example : printImage (pixelHex S16) ⟨0, 6, 3, 2, 0, 3, false⟩ (⟨[some [0, 7, 255, 256, -1, -32768]]⟩ : Heap Int) =
    .ok "image 3 x 2\n[ 00 07 ff ]\n[ 100 ffffffff ffff8000 ]\n\n".toList ⟨[some [0, 7, 255, 256, -1, -32768]]⟩ ∧
    Gray.Valid (⟨[some [0, 7, 255, 256, -1, -32768]]⟩ : Heap Int) ⟨0, 6, 3, 2, 0, 3, false⟩ := by decide +kernel

/-! ## Kernels -/

/-- `print_kernel` of a one dimensional kernel prints its coefficients. -/
theorem C87_kernel1D {k : Kernel S} {w o : Nat} {c : Nat → S} {fmt : S → Option Text} {txt : Nat → Text}
    (hk : k.Is1D w o c) (ht : ∀ i, i < w → fmt (c i) = some (txt i)) (h : Heap V) :
    printKernel1D fmt k h = .ok (kernel1DText w txt) h := by
  unfold printKernel1D
  rw [hk.width]
  refine (M.bind_ok (loopS_text (fun i => " ".toList ++ txt i) (fun i s hi => ?_) _)).trans rfl
  refine (M.bind_ok (show k.get i h = .ok (c i) h by unfold Kernel.get; rw [hk.coef i hi]; rfl)).trans ?_
  rw [ht i hi]
  refine (M.bind_ok (m := opt (some _)) rfl).trans ?_
  rw [List.append_assoc]; rfl

/-- `print_kernel` of a two dimensional kernel prints its offset, its width and its coefficients row by row. -/
theorem C87_kernel2D {k : Kernel S} {w o : Nat} {c : Nat → Nat → S} {fmt : S → Option Text} {txt : Nat → Nat → Text}
    (hk : k.Is2D w o c) (hw : w * w < P32) (hw' : w < 2147483648) (ho : o < 2147483648)
    (ht : ∀ x y, x < w → y < w → fmt (c x y) = some (txt x y)) (h : Heap V) :
    printKernel2D fmt k h = .ok (kernel2DText w o txt) h := by
  unfold printKernel2D
  rw [hk.width, hk.offset]
  refine (loopS_text (fun y => " ".toList ++ (List.range w).flatMap (fun x => " ".toList ++ txt x y) ++ "\n".toList)
    (fun y s hy => ?_) _).trans ?_
  · refine (M.bind_ok (loopS_text (fun x => " ".toList ++ txt x y) (fun x s hx => ?_) _)).trans ?_
    · have hlt : y * w + x < P32 := by
        have := Nat.mul_le_mul_right w (Nat.succ_le_of_lt hy)
        rw [Nat.succ_mul] at this
        omega
      rw [wrap32_of_lt hlt]
      refine (M.bind_ok (show k.get (y * w + x) h = .ok (c x y) h by unfold Kernel.get; rw [hk.coef x y hx hy]; rfl)).trans ?_
      rw [ht x y hx hy]
      refine (M.bind_ok (m := opt (some _)) rfl).trans ?_
      rw [List.append_assoc]; rfl
    · simp only [List.append_assoc]; rfl
  · rw [fmtDec_nat hw', fmtDec_nat ho]
    unfold kernel2DText
    simp only [List.append_assoc]

/-- Kernels of integers of at most 32 bits which print alike have the same coefficients; the offset is printed for two
dimensional kernels only. -/
theorem C87_kernel_faithful {t : IntTy} (ht : t.bits ≤ 32) {k k' : Kernel Int} {w w' o o' : Nat} {text : Text} {h h' : Heap V} :
    (∀ {c c' : Nat → Int}, k.Is1D w o c → k'.Is1D w' o' c' → printKernel1D (coefDec t) k h = .ok text h →
      printKernel1D (coefDec t) k' h' = .ok text h' → w = w' ∧ ∀ i, i < w → c i = c' i) ∧
    (∀ {c c' : Nat → Nat → Int}, k.Is2D w o c → k'.Is2D w' o' c' → w * w < P32 → w' * w' < P32 →
      w < 2147483648 → w' < 2147483648 → o < 2147483648 → o' < 2147483648 → printKernel2D (coefDec t) k h = .ok text h →
      printKernel2D (coefDec t) k' h' = .ok text h' → w = w' ∧ o = o' ∧ ∀ x y, x < w → y < w → c x y = c' x y) := by
  have hc : ∀ v, coefDec t v = some (fmtDec v) := fun v => by unfold coefDec; rw [if_pos ht]
  constructor
  · intro c c' hk hk' e e'
    rw [C87_kernel1D hk (fun i _ => hc (c i))] at e
    rw [C87_kernel1D hk' (fun i _ => hc (c' i))] at e'
    obtain ⟨ew, ec⟩ := kernel1DText_inj (fun _ => fmtDec_num) (fun _ => fmtDec_num) ((Res.ok.inj e).1.trans (Res.ok.inj e').1.symm)
    exact ⟨ew, fun i hi => fmtDec_inj (ec i hi)⟩
  · intro c c' hk hk' h1 h2 h3 h4 h5 h6 e e'
    rw [C87_kernel2D hk h1 h3 h5 (fun x y _ _ => hc (c x y))] at e
    rw [C87_kernel2D hk' h2 h4 h6 (fun x y _ _ => hc (c' x y))] at e'
    obtain ⟨ew, eo, ec⟩ := kernel2DText_inj (fun _ _ => fmtDec_num) (fun _ _ => fmtDec_num)
      ((Res.ok.inj e).1.trans (Res.ok.inj e').1.symm)
    exact ⟨ew, eo, fun x y hx hy => fmtDec_inj (ec x y hx hy)⟩

/-- Two kernels and their texts. -/
example : printKernel1D (coefDec S32) ⟨3, 1, ⟨[-1, 0, 12], 3, 3, true⟩⟩ (⟨[]⟩ : Heap Int) = .ok "Kernel1D[ -1 0 12 ]\n".toList ⟨[]⟩ ∧
    printKernel2D (coefDec S32) ⟨2, 1, ⟨[1, 2, 3, -40], 4, 4, true⟩⟩ (⟨[]⟩ : Heap Int) =
      .ok "Kernel2D{ offset=1, width=2 }\n  1 2\n  3 -40\n".toList ⟨[]⟩ := by decide +kernel

/-! ## Differences -/

/-- The comparison used by the printing and checking helpers, for integral pixels: exact whenever the difference of the two pixels is
representable in the type in which it is computed; this is always so for 8- and 16-bit pixels. -/
theorem absDiff_exact {t : IntTy} (ht : t ∈ [U8, U16, S16, S32, S64]) {a b : Int}
    (hr : t.promote.lo < a - b ∧ a - b ≤ t.promote.hi) : absDiffInt t a b = some |a - b| := by
  have hs : t.promote.signed = true := by
    simp only [List.mem_cons, List.not_mem_nil, or_false] at ht
    rcases ht with rfl | rfl | rfl | rfl | rfl <;> decide
  unfold absDiffInt IntTy.arithO
  rw [if_pos hs, if_pos ⟨by omega, hr.2⟩]
  show (if a - b = t.promote.lo then none else some |a - b|) = _
  rw [if_neg (by omega)]

theorem absDiff_small {t : IntTy} (ht : t ∈ [U8, U16, S16]) {a b : Int} (ha : t.InRange a) (hb : t.InRange b) :
    t.promote.lo < a - b ∧ a - b ≤ t.promote.hi := by
  simp only [List.mem_cons, List.not_mem_nil, or_false] at ht
  rcases ht with rfl | rfl | rfl <;> unfold IntTy.InRange at ha hb <;> revert ha hb <;>
    simp only [IntTy.lo, IntTy.hi, IntTy.promote, U8, U16, S16, S32, S64, U32] <;> norm_num <;> omega

/-- `print_difference(a,b,tol)` prints an `X` for exactly the pixels which differ by more than the tolerance, and changes nothing. -/
theorem C87_difference [LinearOrder V] {h : Heap V} {a b : Gray} {f g : Nat → Nat → V} {dist : V → V → Option V} {d : Nat → Nat → V}
    {tol : V} (ha : a.Valid h) (hb : b.Valid h) (hf : a.Shows h f) (hg : b.Shows h g) (ew : a.width = b.width)
    (eh : a.height = b.height) (hd : ∀ x y, x < a.width → y < a.height → dist (f x y) (g x y) = some (d x y)) :
    printDifference dist a b tol h = .ok (differenceText a.width a.height (fun x y => decide (tol < d x y))) h := by
  unfold printDifference
  have hs : (checkSameShape2 a.width a.height b.width b.height : M V Unit) h = .ok () h := by
    unfold checkSameShape2; rw [if_neg (by omega)]; rfl
  refine (M.bind_ok hs).trans ?_
  refine (loopS_text (fun y => (List.range a.width).map (fun x => if decide (tol < d x y) then 'X' else '-') ++ ['\n'])
    (fun y s hy => ?_) _).trans ?_
  · refine (M.bind_ok (loopS_text (fun x => [if decide (tol < d x y) then 'X' else '-']) (fun x s hx => ?_) _)).trans ?_
    · refine (M.bind_ok (ha.at_run hf hx hy)).trans ?_
      refine (M.bind_ok (hb.at_run hg (by omega) (by omega))).trans ?_
      rw [hd x y hx hy]
      refine (M.bind_ok (m := opt (some _)) rfl).trans ?_
      by_cases hc : tol < d x y
      · simp [hc]; rfl
      · simp [hc]; rfl
    · rw [← List.map_eq_flatMap]
      simp only [List.append_assoc]; rfl
  · rfl

/-- Pictures of different shape are refused. -/
theorem C87_difference_throws [LinearOrder V] (h : Heap V) {a b : Gray} {dist : V → V → Option V} {tol : V}
    (hs : a.width ≠ b.width ∨ a.height ≠ b.height) : printDifference dist a b tol h = .throw h :=
  M.bind_throw (by unfold checkSameShape2; rw [if_pos hs]; rfl)

example : printDifference (absDiffInt U8) ⟨0, 4, 2, 2, 0, 2, false⟩ ⟨1, 4, 2, 2, 0, 2, false⟩ 1
    (⟨[some [0, 255, 7, 8], some [1, 0, 7, 6]]⟩ : Heap Int) = .ok "-X\n-X\n".toList ⟨[some [0, 255, 7, 8], some [1, 0, 7, 6]]⟩ := by
  decide +kernel

end Boof
