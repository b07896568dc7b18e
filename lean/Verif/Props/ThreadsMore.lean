import Verif.Props.ThreadParts
import Verif.Props.Normalized
import Verif.Props.Otsu
import Verif.Props.BinaryOps
/-
C98 and C125 for erosion and dilation, the global Otsu threshold and the normalized convolution of an image.
-/
namespace Boof
open M OtsuSpec
variable {V S : Type}

/-! ## Erosion and dilation -/

theorem Painted.validAfter {h h' : Heap V} {g : Gray} {f : Nat → Nat → Option V} (p : Painted h h' g f) (hv : g.Valid h) : g.Valid h' := by
  refine hv.transfer (by rw [p.alive]; exact hv.live) (fun i hi => ?_)
  obtain ⟨v, e⟩ := hv.cells i hi
  by_cases hx : ∃ x y, x < g.width ∧ y < g.height ∧ i = g.addr x y
  · obtain ⟨x, y, hx, hy, rfl⟩ := hx
    have q := p.pix x y hx hy
    change h'.cell g.buf (g.addr x y) = (f x y).or (h.cell g.buf (g.addr x y)) at q
    rw [q, e]
    cases f x y with
    | none => exact ⟨v, rfl⟩
    | some u => exact ⟨u, rfl⟩
  · exact ⟨v, by rw [p.frame g.buf i (fun x y hx' hy' c => hx ⟨x, y, hx', hy', c.2⟩)]; exact e⟩

theorem morphology_sound {run : M Int Gray} {input output : Gray} {f g F : Nat → Nat → Int} (ew : output.width = input.width)
    (eh : output.height = input.height)
    (hrun : ∀ h, input.Valid h → output.Valid h → input.Shows h f → ∃ (o : Gray) (hm h' : Heap Int) (F' : Nat → Nat → Int),
      run h = .ok o h' ∧ Reshaped h hm output o input.width input.height ∧
      Painted hm h' o (fun x y => if Interior input.width input.height x y then some (F' x y) else none) ∧
      ∀ x y, Interior input.width input.height x y → F' x y = F x y)
    (hg : ∀ x y, x < input.width → y < input.height → ¬Interior input.width input.height x y → F x y = g x y) :
    (Job.mk run [(input, f), (output, g)] [output] input.width input.height F).Sound := fun h hr => by
  have hin := hr.1 (input, f) (by simp)
  have hout := hr.1 (output, g) (by simp)
  obtain ⟨o, hm, h', F', e, r, p, hF⟩ := hrun h hin.1 hout.1 hin.2
  obtain ⟨rfl, rfl⟩ := r.same ew eh
  refine ⟨o, h', e, ⟨ew, eh, p.validAfter hout.1, fun x y hx hy => ?_⟩, Or.inl ⟨o, by simp, rfl⟩, Nat.le_of_eq p.next.symm,
    fun b hb hne => ⟨p.alive b, fun i => p.frame b i (fun _ _ _ _ c => hne o (by simp) c.1)⟩, fun u hu _ _ => ?_⟩
  · have sg : hm.px o x y = some (g x y) := hout.2 x y hx hy
    rw [p.pix x y hx hy, sg]
    by_cases hi : Interior input.width input.height x y
    · rw [if_pos hi, hF x y hi]; rfl
    · rw [if_neg hi]
      exact congrArg some (hg x y (ew ▸ hx) (eh ▸ hy) hi).symm
  · cases hu
    exact ⟨rfl, fun i hi => p.frame _ i (fun x y hx hy c => hi x y hx hy c.2)⟩

/-- `BinaryImageOps::erode4` into an image of the right size, for a binary picture: a pixel which is not on the frame is one exactly if it and
its four neighbours are; the frame keeps what is in the output. -/
theorem C98_erode4 {input output : Gray} {f g F : Nat → Nat → Int} (ew : output.width = input.width) (eh : output.height = input.height)
    (hbin : IsBinary input.width input.height f) (hs : input.Sep output input.width input.height) (h0 : 0 < input.width)
    (h1 : 0 < input.height)
    (hF : ∀ x y, Interior input.width input.height x y → (F x y = 0 ∨ F x y = 1) ∧ (F x y = 1 ↔ ∀ v, Cross4 f x y v → v = 1))
    (hg : ∀ x y, x < input.width → y < input.height → ¬Interior input.width input.height x y → F x y = g x y) :
    (Job.mk (BinaryImageOps.erode4 input output) [(input, f), (output, g)] [output] input.width input.height F).Sound :=
  morphology_sound ew eh (fun h hv ho hf => by
    obtain ⟨o, hm, h', F', e, r, p, q, -⟩ := C31_erode4 hv ho hf hbin (Or.inr ⟨ew, eh⟩) hs h0 h1
    refine ⟨o, hm, h', F', e, r, p, fun x y hi => ?_⟩
    obtain ⟨a1, a2⟩ := q x y hi
    obtain ⟨b1, b2⟩ := hF x y hi
    have := a2.trans b2.symm
    omega) hg

/-- `BinaryImageOps::dilate4`: one exactly if the pixel or one of its four neighbours is. -/
theorem C98_dilate4 {input output : Gray} {f g F : Nat → Nat → Int} (ew : output.width = input.width) (eh : output.height = input.height)
    (hbin : IsBinary input.width input.height f) (hs : input.Sep output input.width input.height) (h0 : 0 < input.width)
    (h1 : 0 < input.height)
    (hF : ∀ x y, Interior input.width input.height x y → (F x y = 0 ∨ F x y = 1) ∧ (F x y = 1 ↔ ∃ v, Cross4 f x y v ∧ v = 1))
    (hg : ∀ x y, x < input.width → y < input.height → ¬Interior input.width input.height x y → F x y = g x y) :
    (Job.mk (BinaryImageOps.dilate4 input output) [(input, f), (output, g)] [output] input.width input.height F).Sound :=
  morphology_sound ew eh (fun h hv ho hf => by
    obtain ⟨o, hm, h', F', e, r, p, q, -⟩ := C31_dilate4 hv ho hf hbin (Or.inr ⟨ew, eh⟩) hs h0 h1
    refine ⟨o, hm, h', F', e, r, p, fun x y hi => ?_⟩
    obtain ⟨a1, a2⟩ := q x y hi
    obtain ⟨b1, b2⟩ := hF x y hi
    have := a2.trans b2.symm
    omega) hg

theorem Steps.cross4 {R W : Nat → Prop} (test : Int → Bool) {input output : Gray} (hr : R input.buf) (hw : W output.buf)
    (ew : output.width = input.width) (eh : output.height = input.height) : Steps R W (BinaryImageOps.cross4 test input output) := by
  unfold BinaryImageOps.cross4
  rw [reshape_same ew eh, M.pure_after]
  steps

theorem Steps.erode4 {R W : Nat → Prop} {input output : Gray} (hr : R input.buf) (hw : W output.buf)
    (ew : output.width = input.width) (eh : output.height = input.height) : Steps R W (BinaryImageOps.erode4 input output) :=
  Steps.cross4 _ hr hw ew eh

theorem Steps.dilate4 {R W : Nat → Prop} {input output : Gray} (hr : R input.buf) (hw : W output.buf)
    (ew : output.width = input.width) (eh : output.height = input.height) : Steps R W (BinaryImageOps.dilate4 input output) :=
  Steps.cross4 _ hr hw ew eh

/-- Erosion and dilation into an image of the right size -/
theorem C125_morphology {input output : Gray} {f g F : Nat → Nat → Int} (ew : output.width = input.width) (eh : output.height = input.height) :
    (∃ p, (Job.mk (BinaryImageOps.erode4 input output) [(input, f), (output, g)] [output] input.width input.height F).Is p) ∧
    ∃ p, (Job.mk (BinaryImageOps.dilate4 input output) [(input, f), (output, g)] [output] input.width input.height F).Is p :=
  ⟨Steps.job (Steps.erode4 (Or.inl ⟨(input, f), List.mem_cons_self, rfl⟩) ⟨output, List.mem_singleton.2 rfl, rfl⟩ ew eh),
    Steps.job (Steps.dilate4 (Or.inl ⟨(input, f), List.mem_cons_self, rfl⟩) ⟨output, List.mem_singleton.2 rfl, rfl⟩ ew eh)⟩

theorem Fine.range {R W : Nat → Nat → Prop} {lo hi : Nat} {body : Nat → M V Unit}
    (hb : ∀ i, lo ≤ i → i < hi → Fine R W (fun _ => True) (body i)) : Fine R W (fun _ => True) (M.forRange lo hi body) := by
  unfold M.forRange
  exact Fine.loop (fun i hi => hb (lo + i) (by omega) (by omega))

/-- `erode4` and `dilate4` into an image of the right size read pixels of the input and write pixels of the output. -/
theorem C125_morphology_pixels {input output : Gray} {f g F : Nat → Nat → Int} {h : Heap Int} (hi : input.Valid h) (ho : output.Valid h)
    (ew : output.width = input.width) (eh : output.height = input.height) (h0 : 0 < input.width) (h1 : 0 < input.height) :
    (∃ p, let j := Job.mk (BinaryImageOps.erode4 input output) [(input, f), (output, g)] [output] input.width input.height F
      j.IsFine j.Sees j.Marks p) ∧
    ∃ p, let j := Job.mk (BinaryImageOps.dilate4 input output) [(input, f), (output, g)] [output] input.width input.height F
      j.IsFine j.Sees j.Marks p := by
  have key : ∀ {R W : Nat → Nat → Prop} (test : Int → Bool), (∀ c k, input.Pixel c k → R c k) → (∀ c k, output.Pixel c k → W c k) →
      Fine R W (fun g => g = output) (BinaryImageOps.cross4 test input output) := by
    intro R W test hR hW
    have hw := hi.widthLt
    have hh := hi.heightLt
    unfold BinaryImageOps.cross4
    rw [reshape_same ew eh, M.pure_after]
    refine Fine.bind (P := fun _ => True) ?_ (fun _ _ => Fine.pure rfl)
    rw [sub32_of_le (by omega) hh]
    refine Fine.range (fun y hy1 hy2 => ?_)
    have hre := hi.rowEnd_lt (y := y) (by omega)
    have hro := ho.rowEnd_lt (y := y) (by omega)
    have ei : wrap32 (input.offset + y * input.stride + 1) = input.offset + y * input.stride + 1 := wrap32_of_lt (by omega)
    have eo : wrap32 (output.offset + y * output.stride + 1) = output.offset + y * output.stride + 1 := wrap32_of_lt (by omega)
    by_cases hsw : input.width ≤ 2
    · have : wrap32 (wrap32 (input.offset + y * input.stride + 1) + sub32 input.width 2) -
          wrap32 (input.offset + y * input.stride + 1) = 0 := by
        rw [ei]
        have hw12 : input.width = 1 ∨ input.width = 2 := by omega
        rcases hw12 with e | e
        · rw [e] at hre ⊢
          unfold sub32 wrap32 P32 at *; omega
        · rw [e] at hre ⊢
          unfold sub32 wrap32 P32 at *; omega
      show Fine R W _ (M.loop (wrap32 (wrap32 (input.offset + y * input.stride + 1) + sub32 input.width 2) -
          wrap32 (input.offset + y * input.stride + 1)) _)
      rw [this]
      exact Fine.loop (fun x hx => absurd hx (Nat.not_lt_zero _))
    · have : wrap32 (wrap32 (input.offset + y * input.stride + 1) + sub32 input.width 2) -
          wrap32 (input.offset + y * input.stride + 1) = input.width - 2 := by
        rw [ei, sub32_of_le (by omega) hw, wrap32_of_lt (by omega)]
        omega
      show Fine R W _ (M.loop (wrap32 (wrap32 (input.offset + y * input.stride + 1) + sub32 input.width 2) -
          wrap32 (input.offset + y * input.stride + 1)) _)
      rw [this]
      refine Fine.loop (fun k hk => ?_)
      have hst := hi.rowLe
      have up : (y - 1) * input.stride + input.stride = y * input.stride := by
        obtain ⟨z, rfl⟩ : ∃ z, y = z + 1 := ⟨y - 1, by omega⟩
        rw [Nat.add_sub_cancel, Nat.succ_mul]
      have dn : (y + 1) * input.stride = y * input.stride + input.stride := Nat.succ_mul _ _
      have hdn := hi.rowEnd_lt (y := y + 1) (by omega)
      have pix : ∀ x' y' a, x' < input.width → y' < input.height → a = input.offset + y' * input.stride + x' → R input.buf a :=
        fun x' y' a hx hy e => hR _ _ ⟨x', y', hx, hy, rfl, e⟩
      show Fine R W _ (do
        let v0 ← M.rd input.buf (wrap32 (input.offset + y * input.stride + 1) + k)
        let v1 ← M.rd input.buf (sub32 (wrap32 (input.offset + y * input.stride + 1) + k) 1)
        let v2 ← M.rd input.buf (wrap32 (wrap32 (input.offset + y * input.stride + 1) + k + 1))
        let v3 ← M.rd input.buf (sub32 (wrap32 (input.offset + y * input.stride + 1) + k) input.stride)
        let v4 ← M.rd input.buf (wrap32 (wrap32 (input.offset + y * input.stride + 1) + k + input.stride))
        M.wr output.buf (wrap32 (wrap32 (output.offset + y * output.stride + 1) + k)) (b2i (test (v0 + v1 + v2 + v3 + v4))))
      rw [ei, eo, sub32_of_le (a := input.offset + y * input.stride + 1 + k) (b := 1) (by omega) (by omega),
        wrap32_of_lt (n := input.offset + y * input.stride + 1 + k + 1) (by omega),
        sub32_of_le (a := input.offset + y * input.stride + 1 + k) (b := input.stride) (by omega) (by omega),
        wrap32_of_lt (n := input.offset + y * input.stride + 1 + k + input.stride) (by omega),
        wrap32_of_lt (n := output.offset + y * output.stride + 1 + k) (by omega)]
      refine (Fine.rd (pix (k + 1) y _ (by omega) (by omega) (by omega))).bind (fun _ _ => ?_)
      refine (Fine.rd (pix k y _ (by omega) (by omega) (by omega))).bind (fun _ _ => ?_)
      refine (Fine.rd (pix (k + 2) y _ (by omega) (by omega) (by omega))).bind (fun _ _ => ?_)
      refine (Fine.rd (pix (k + 1) (y - 1) _ (by omega) (by omega) (by omega))).bind (fun _ _ => ?_)
      refine (Fine.rd (pix (k + 1) (y + 1) _ (by omega) (by omega) (by omega))).bind (fun _ _ => ?_)
      exact Fine.wr (hW _ _ ⟨k + 1, y, by omega, by omega, rfl, by unfold Gray.addr; omega⟩)
  constructor
  · refine Fine.job ((key (fun s => s = 5) ?_ ?_).weaken (fun _ e => by rw [e]; exact List.mem_singleton.2 rfl))
    · exact fun c k hk => Or.inl ⟨(input, f), List.mem_cons_self, hk⟩
    · exact fun c k hk => ⟨output, List.mem_singleton.2 rfl, hk⟩
  · refine Fine.job ((key (fun s => s > 0) ?_ ?_).weaken (fun _ e => by rw [e]; exact List.mem_singleton.2 rfl))
    · exact fun c k hk => Or.inl ⟨(input, f), List.mem_cons_self, hk⟩
    · exact fun c k hk => ⟨output, List.mem_singleton.2 rfl, hk⟩

/-- Two threads which erode the upper and the lower three rows of one image into those of another one: neither writes what the other accesses. -/
example : let h : Heap Int := ⟨[some (List.replicate 18 1), some (List.replicate 18 7)]⟩
    let inp : Bool → Gray := fun i => ⟨0, 18, 3, 3, if i then 9 else 0, 3, true⟩
    let out : Bool → Gray := fun i => ⟨1, 18, 3, 3, if i then 9 else 0, 3, true⟩
    let job : Bool → Job Int := fun i => ⟨BinaryImageOps.erode4 (inp i) (out i), [(inp i, fun _ _ => 1), (out i, fun _ _ => 7)], [out i], 3, 3,
      fun x y => if x = 1 ∧ y = 1 then 1 else 7⟩
    (∀ i j, i ≠ j → ∀ b k, (job i).Marks b k → ¬(job j).Sees b k) ∧ (∀ i, (job i).Sound) ∧
    ∀ i, ∃ p, (job i).IsFine (job i).Sees (job i).Marks p := by
  intro h inp out job
  have vi : ∀ i, (inp i).Valid h := by decide +kernel
  have vo : ∀ i, (out i).Valid h := by decide +kernel
  have hint : ∀ x y, Interior 3 3 x y → x = 1 ∧ y = 1 := fun x y hi => by unfold Interior at hi; omega
  have hin : Interior 3 3 1 1 := by decide
  have h3 : 0 < 3 := by decide
  refine ⟨?_, fun i => ?_, fun i => (C125_morphology_pixels (vi i) (vo i) rfl rfl h3 h3).1⟩
  · rintro i j hij b k ⟨w, hw, hp⟩ hs
    rw [List.mem_singleton.1 hw] at hp
    obtain ⟨x, y, hx, hy, rfl, rfl⟩ := hp
    have hno : ∀ u : Gray, u = inp j ∨ u = out j → ¬u.Pixel (out i).buf ((out i).addr x y) := by
      rintro u (rfl | rfl) ⟨x', y', hx', hy', eb, ek⟩
      · exact absurd eb (by cases i <;> cases j <;> decide)
      · simp only [out, Gray.addr] at hx hy hx' hy' ek
        cases i <;> cases j <;> simp_all <;> omega
    rcases hs with ⟨q, hq, hs⟩ | ⟨w', hw', hs⟩
    · simp only [job, List.mem_cons, List.not_mem_nil, or_false] at hq
      rcases hq with rfl | rfl
      · exact hno _ (Or.inl rfl) hs
      · exact hno _ (Or.inr rfl) hs
    · rw [List.mem_singleton.1 hw'] at hs
      exact hno _ (Or.inr rfl) hs
  · refine C98_erode4 rfl rfl (fun _ _ _ _ => Or.inr rfl) (Or.inl (by cases i <;> decide)) h3 h3 (fun x y hi => ?_)
      (fun x y _ _ hn => if_neg (fun e => hn (by rw [e.1, e.2]; exact hin)))
    obtain ⟨rfl, rfl⟩ := hint x y hi
    exact ⟨Or.inr rfl, fun _ v hv => by rcases hv with e | e | e | e | e <;> exact e, fun _ => rfl⟩

/-! ## The normalized convolution of an image -/

/-- `ConvolveNormalized::convolve` -/
theorem C98_normalized (z : V) (A : Arith V S) (isFloat : Bool) (hA : A.OneLaw) {k : Kernel S} {kw o : Nat} {c : Nat → S}
    {input output workspace : Gray} {f G F : Nat → Nat → V} (hb : BlurShapes input output workspace kw)
    (hk : k.Is1D kw o c) (hok : o < kw)
    (hnar : input.height ≤ kw → ∀ i, i < kw → A.narrow (c i) = c i)
    (hdx : ∀ x, x < input.width → weightAt A kw o c input.width x ≠ none)
    (hdy : ∀ y, y < input.height → weightAt A kw o c input.height y ≠ none)
    (hG : ∀ x y, x < input.width → y < input.height → avgAt A kw o c input.width (fun i => f i y) x = some (G x y))
    (hF : ∀ x y, x < input.width → y < input.height → avgAt A kw o c input.height (fun i => G x i) y = some (F x y)) :
    (Job.mk (do let p ← ConvolveNormalized.convolve z A isFloat k input output workspace; pure p.1) [(input, f)] [output, workspace]
      input.width input.height F).Sound :=
  Produced2.sound (storage := workspace) (m := G) rfl (fun h hrd => by
    obtain ⟨v, sh⟩ := hrd.1 _ (List.mem_singleton.2 rfl)
    obtain ⟨out, work, h', e, p, -⟩ := C51_convolve_partial z A isFloat hA v (hrd.2 output (by simp)) (hrd.2 workspace (by simp)) sh
      hb.outputShape hb.storageShape hb.outputApart hb.storageApart hb.apart hk hok hb.widthBound hb.heightBound hb.lengthBound
      hb.storageBound hnar hdx hdy hG hF
    exact ⟨out, work, h', (M.bind_ok e).trans rfl, p⟩)

/-- `ConvolveNormalized::convolve` with output and workspace of the right size; the kernel is read by any number of threads -/
theorem C125_normalized (z : V) (A : Arith V S) (isFloat : Bool) (k : Kernel S) {input output workspace : Gray} {f F : Nat → Nat → V}
    (ow : output.width = input.width) (oh : output.height = input.height)
    (sw : workspace.width = input.width) (sh : workspace.height = input.height) :
    ∃ p, (Job.mk (do let p ← ConvolveNormalized.convolve z A isFloat k input output workspace; pure p.1) [(input, f)] [output, workspace]
      input.width input.height F).Is p := by
  refine Steps.job (Steps.bind ?_ (fun _ => Steps.pure _))
  have hi : Job.Reads (Job.mk (do let p ← ConvolveNormalized.convolve z A isFloat k input output workspace; pure p.1) [(input, f)]
    [output, workspace] input.width input.height F) input.buf := Or.inl ⟨(input, f), List.mem_singleton.2 rfl, rfl⟩
  have hr : Job.Reads (Job.mk (do let p ← ConvolveNormalized.convolve z A isFloat k input output workspace; pure p.1) [(input, f)]
    [output, workspace] input.width input.height F) workspace.buf := Or.inr ⟨workspace, by simp, rfl⟩
  have ho : ∃ u, u ∈ [output, workspace] ∧ output.buf = u.buf := ⟨output, by simp, rfl⟩
  have hs : ∃ u, u ∈ [output, workspace] ∧ workspace.buf = u.buf := ⟨workspace, by simp, rfl⟩
  unfold ConvolveNormalized.convolve
  rw [reshape_same ow oh, M.pure_after, reshape_same sw sh, M.pure_after]
  cases isFloat
  · exact Steps.bind (Steps.norm_h _ k hi hs) (fun _ => Steps.bind (Steps.norm_v _ k hr ho) (fun _ => Steps.pure _))
  · exact Steps.bind (Steps.norm_hF _ k hi hs) (fun _ => Steps.bind (Steps.norm_vF _ k hr ho) (fun _ => Steps.pure _))

/-! ## The global Otsu threshold -/

section
variable (K : Type) [Field K] [LinearOrder K] [IsStrictOrderedRing K] [FloorRing K]

/-- `GlobalOtsuBinaryFilter::process` for pixels `0 .. hi`; there is one number with the properties of `IsOtsu`. -/
theorem C98_otsu {t : IntTy} (ht : t = U8 ∨ t = U16 ∨ t = S16 ∨ t = S32) {input output : Gray} {f : Nat → Nat → Int}
    {hi : Int} (hhi : t.InRange hi) (hle : 0 ≤ hi) (hr : ∀ x y, x < input.width → y < input.height → 0 ≤ f x y ∧ f x y ≤ hi)
    (hrange : 1 + hi ≤ 2147483647) (hc : output.CanBe input.width input.height) (hs : input.SepOrSame output input.width input.height)
    (down : Bool) (junk : Nat → Int) {v : Nat} (hv : IsOtsu K (1 + hi).toNat (fun k => pixelCount input.width input.height f k) v) :
    (Job.mk (ThresholdOps.globalOtsu K t junk 0 hi down input output) [(input, f)] [output] input.width input.height
      (fun x y => if (down = true ∧ f x y ≤ v) ∨ (down = false ∧ f x y > v) then 1 else 0)).Sound :=
  Produced.sound rfl (fun h hrd => by
    obtain ⟨w, sh⟩ := hrd.1 _ (List.mem_singleton.2 rfl)
    obtain ⟨v', o, h', e, hO, p⟩ := C35_zero_min (K := K) ht w (hrd.2 output (by simp)) sh hhi hle hr hrange hc hs down junk
    obtain rfl := IsOtsu_unique hO hv
    exact ⟨o, h', e, p⟩)

theorem Steps.histGet {R W : Nat → Prop} (a : GrowArray Int) (i : Nat) : Steps R W (a.get i : M V Int) := by
  unfold GrowArray.get; steps
macro_rules | `(tactic| steps_rule) => `(tactic| with_reducible exact Steps.histGet _ _)

theorem Steps.otsuTotal {R W : Nat → Prop} (a : GrowArray Int) : Steps R W (ComputeOtsu.total a : M V K) := by
  unfold ComputeOtsu.total; steps

theorem Steps.otsuScan {R W : Nat → Prop} (a : GrowArray Int) (s : K) (n : Nat) :
    Steps R W (ComputeOtsu.scan a s n : M V (ComputeOtsu.Scan K)) := by
  unfold ComputeOtsu.scan
  refine Steps.loopS (fun i s => ?_)
  dsimp only
  steps

theorem Steps.otsuCompute {R W : Nat → Prop} (o : ComputeOtsu K) (a : GrowArray Int) (n : Nat) :
    Steps R W (o.compute a n : M V Int) := by
  have h1 := fun s : K => Steps.otsuScan (V := V) (R := R) (W := W) K a s n
  have h2 := Steps.otsuTotal (V := V) (R := R) (W := W) K a
  unfold ComputeOtsu.compute
  refine Steps.bind ?_ (fun _ => ?_)
  · split
    · exact Steps.bind h2 (fun s => Steps.bind (h1 s) (fun _ => Steps.pure _))
    · exact Steps.bind h2 (fun s => Steps.bind (h1 s) (fun _ => Steps.pure _))
  · steps

theorem Steps.histogram {R W : Nat → Prop} (t : IntTy) {g : Gray} (hr : R g.buf) (lo : Int) (a : GrowArray Int) :
    Steps R W (ImageStatistics.histogram t g lo a) := by
  unfold ImageStatistics.histogram; steps

/-- The global Otsu threshold into an image of the right size or in place; the histogram belongs to the call. -/
theorem C125_otsu (t : IntTy) (junk : Nat → Int) (lo hi : Int) (down : Bool) {input output : Gray} {f F : Nat → Nat → Int}
    (ew : output.width = input.width) (eh : output.height = input.height) :
    ∃ p, (Job.mk (ThresholdOps.globalOtsu K t junk lo hi down input output) [(input, f)] [output] input.width input.height F).Is p := by
  have hi' : Job.Reads (Job.mk (ThresholdOps.globalOtsu K t junk lo hi down input output) [(input, f)] [output] input.width
    input.height F) input.buf := Or.inl ⟨(input, f), List.mem_singleton.2 rfl, rfl⟩
  refine Steps.job (Steps.bind ?_ (fun thr => Steps.threshold _ _ _ _ _ _ hi' ⟨output, List.mem_singleton.2 rfl, rfl⟩ ew eh))
  unfold ThresholdOps.computeOtsu
  refine Steps.bind (Steps.arith _ _) (fun _ => Steps.bind (Steps.arith _ _) (fun _ => Steps.bind ?_ (fun a =>
    Steps.bind (Steps.histogram t hi' lo a) (fun b => Steps.bind (Steps.otsuCompute K _ b _) (fun _ => Steps.toInt _ _)))))
  split
  · exact Steps.pure _
  · exact Steps.ub

end


/-- Three threads which work on one binary image of 3x3 pixels: its erosion, its dilation and its global Otsu threshold. -/
example : let a : Gray := ⟨0, 9, 3, 3, 0, 3, false⟩
    let o1 : Gray := ⟨1, 9, 3, 3, 0, 3, false⟩
    let o2 : Gray := ⟨2, 12, 3, 3, 0, 4, true⟩
    let o3 : Gray := ⟨3, 9, 3, 3, 0, 3, false⟩
    let h : Heap Int := ⟨[some [1, 1, 1, 1, 1, 1, 1, 0, 1], some (List.replicate 9 7), some (List.replicate 12 8), some (List.replicate 9 9)]⟩
    ∃ job : Fin 3 → Job Int, (job 0).run = BinaryImageOps.erode4 a o1 ∧ (job 1).run = BinaryImageOps.dilate4 a o2 ∧
      (job 2).run = ThresholdOps.globalOtsu ℚ U8 (fun _ => 77) 0 255 true a o3 ∧
      (∀ i j, i ≠ j → (job i).Apart (job j)) ∧ (∀ i, (job i).Sound) ∧ (∀ i, (job i).Ready h) ∧ ∀ i, ∃ p, (job i).Is p := by
  intro a o1 o2 o3 h
  let fa : Nat → Nat → Int := fun x y => if x = 1 ∧ y = 2 then 0 else 1
  have ha : a.Shows h fa := fun x y hx hy => by
    have : ∀ x : Nat, x < 3 → ∀ y : Nat, y < 3 → h.px a x y = some (fa x y) := by decide +kernel
    exact this x hx y hy
  have s1 : o1.Shows h (fun _ _ => 7) := fun x y hx hy => by
    have : ∀ x : Nat, x < 3 → ∀ y : Nat, y < 3 → h.px o1 x y = some 7 := by decide +kernel
    exact this x hx y hy
  have s2 : o2.Shows h (fun _ _ => 8) := fun x y hx hy => by
    have : ∀ x : Nat, x < 3 → ∀ y : Nat, y < 3 → h.px o2 x y = some 8 := by decide +kernel
    exact this x hx y hy
  have va : a.Valid h := by decide +kernel
  have v1 : o1.Valid h := by decide +kernel
  have v2 : o2.Valid h := by decide +kernel
  have v3 : o3.Valid h := by decide +kernel
  have hbin : IsBinary 3 3 fa := fun x y _ _ => by simp only [fa]; split <;> simp
  have hint : ∀ x y, Interior 3 3 x y → x = 1 ∧ y = 1 := fun x y hi => by unfold Interior at hi; omega
  have S0 := C98_erode4 (input := a) (output := o1) (f := fa) (g := fun _ _ => 7) (F := fun x y => if x = 1 ∧ y = 1 then 0 else 7)
    rfl rfl hbin (Or.inl (by decide)) (by decide) (by decide)
    (fun x y hi => by
      obtain ⟨rfl, rfl⟩ := hint x y hi
      refine ⟨Or.inl rfl, fun e => by simp at e, fun e => ?_⟩
      have := e 0 (Or.inr (Or.inr (Or.inr (Or.inr rfl))))
      omega)
    (fun x y _ _ hn => if_neg (fun e => hn (by rw [e.1, e.2]; decide)))
  have S1 := C98_dilate4 (input := a) (output := o2) (f := fa) (g := fun _ _ => 8) (F := fun x y => if x = 1 ∧ y = 1 then 1 else 8)
    rfl rfl hbin (Or.inl (by decide)) (by decide) (by decide)
    (fun x y hi => by
      obtain ⟨rfl, rfl⟩ := hint x y hi
      exact ⟨Or.inr rfl, fun _ => ⟨1, Or.inl rfl, rfl⟩, fun _ => rfl⟩)
    (fun x y _ _ hn => if_neg (fun e => hn (by rw [e.1, e.2]; decide)))
  have hr : ∀ x y, x < a.width → y < a.height → 0 ≤ fa x y ∧ fa x y ≤ 255 := fun x y _ _ => by
    simp only [fa]; split <;> omega
  obtain ⟨v, o, h', -, hO, -⟩ := C35_zero_min (K := ℚ) (t := U8) (Or.inl rfl) va v3 ha (hi := 255) (by decide) (by decide) hr (by decide)
    (Or.inl rfl) (Or.inr (Or.inl (by decide))) true (fun _ => 77)
  have S2 := C98_otsu ℚ (t := U8) (Or.inl rfl) (input := a) (output := o3) (f := fa) (hi := 255) (by decide) (by decide) hr (by decide)
    (Or.inl rfl) (Or.inr (Or.inl (by decide))) true (fun _ => 77) hO
  have I := fun F G => (C125_morphology (input := a) (output := o1) (f := fa) (g := F) (F := G) rfl rfl).1
  have I' := fun F G => (C125_morphology (input := a) (output := o2) (f := fa) (g := F) (F := G) rfl rfl).2
  have I2 := fun G => C125_otsu ℚ U8 (fun _ => 77) 0 255 true (input := a) (output := o3) (f := fa) (F := G) rfl rfl
  refine ⟨fun i => match i with | 0 => ⟨_, _, _, _, _, _⟩ | 1 => ⟨_, _, _, _, _, _⟩ | 2 => ⟨_, _, _, _, _, _⟩, rfl, rfl, rfl, ?_,
    fun i => match i with | 0 => S0 | 1 => S1 | 2 => S2, fun i => ?_, fun i => match i with | 0 => I _ _ | 1 => I' _ _ | 2 => I2 _⟩
  · intro i j hij
    match i, j with
    | 0, 0 | 1, 1 | 2, 2 => exact absurd rfl hij
    | 0, 1 | 0, 2 | 1, 0 | 1, 2 | 2, 0 | 2, 1 => simp [Job.Apart, a, o1, o2, o3]
  · match i with
    | 0 =>
      refine ⟨fun p hp => ?_, fun u hu => by rw [List.mem_singleton.1 hu]; exact v1⟩
      simp only [List.mem_cons, List.not_mem_nil, or_false] at hp
      rcases hp with rfl | rfl
      · exact ⟨va, ha⟩
      · exact ⟨v1, s1⟩
    | 1 =>
      refine ⟨fun p hp => ?_, fun u hu => by rw [List.mem_singleton.1 hu]; exact v2⟩
      simp only [List.mem_cons, List.not_mem_nil, or_false] at hp
      rcases hp with rfl | rfl
      · exact ⟨va, ha⟩
      · exact ⟨v2, s2⟩
    | 2 => exact ⟨fun p hp => by rw [List.mem_singleton.1 hp]; exact ⟨va, ha⟩, fun u hu => by rw [List.mem_singleton.1 hu]; exact v3⟩

/-- The normalized convolution of a 3x3 image by `1 2 1` with integral pixels. -/
example : ∃ F : Nat → Nat → Int, let f : Nat → Nat → Int := fun x y => 10 * ((x + 3 * y : Nat) : Int)
    (Job.mk (do
      let p ← ConvolveNormalized.convolve 0 (intArith U8 U8) false ⟨3, 1, ⟨[1, 2, 1], 3, 0, true⟩⟩ ⟨0, 9, 3, 3, 0, 3, false⟩
        ⟨1, 9, 3, 3, 0, 3, false⟩ ⟨2, 9, 3, 3, 0, 3, false⟩
      pure p.1) [(⟨0, 9, 3, 3, 0, 3, false⟩, f)] [⟨1, 9, 3, 3, 0, 3, false⟩, ⟨2, 9, 3, 3, 0, 3, false⟩] 3 3 F).Sound ∧ F 1 1 = 40 := by
  let c : Nat → Int := fun i => ([1, 2, 1] : List Int).getD i 0
  let f : Nat → Nat → Int := fun x y => 10 * ((x + 3 * y : Nat) : Int)
  let G : Nat → Nat → Int := fun x y => (avgAt (intArith U8 U8) 3 1 c 3 (fun i => f i y) x).getD 0
  let F : Nat → Nat → Int := fun x y => (avgAt (intArith U8 U8) 3 1 c 3 (fun i => G x i) y).getD 0
  refine ⟨F, C98_normalized (G := G) (c := c) (kw := 3) (o := 1) 0 (intArith U8 U8) false (oneLaw_int U8 U8)
    ⟨Or.inl rfl, Or.inl rfl, Or.inl (by decide), Or.inl (by decide), by decide, by decide, by decide, by decide, by decide⟩
    ⟨rfl, rfl, rfl, by decide⟩ (by decide) (by decide) ?_ ?_ ?_ ?_, by decide +kernel⟩
  · intro x hx
    have : ∀ x : Nat, x < 3 → weightAt (intArith U8 U8) 3 1 c 3 x ≠ none := by decide +kernel
    exact this x hx
  · intro x hx
    have : ∀ x : Nat, x < 3 → weightAt (intArith U8 U8) 3 1 c 3 x ≠ none := by decide +kernel
    exact this x hx
  · intro x y hx hy
    have : ∀ x : Nat, x < 3 → ∀ y : Nat, y < 3 → avgAt (intArith U8 U8) 3 1 c 3 (fun i => f i y) x = some (G x y) := by decide +kernel
    exact this x hx y hy
  · intro x y hx hy
    have : ∀ x : Nat, x < 3 → ∀ y : Nat, y < 3 → avgAt (intArith U8 U8) 3 1 c 3 (fun i => G x i) y = some (F x y) := by decide +kernel
    exact this x hx y hy

end Boof
