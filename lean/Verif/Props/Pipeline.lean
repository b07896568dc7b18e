import Verif.Props.Contour
import Verif.Props.BinaryOps
import Verif.Spec.Algebra
/-
C94: thresholding a picture and finding the contours of the result.
-/
namespace Boof
open M

variable {h : Heap Int} {l : Labeller} {input binary labeled : Gray} {f : Nat → Nat → Int} {fuel : Nat}

/-- After any filter which makes a picture of zeros and ones the contour finder can be applied to that picture. -/
theorem after_filter {r : Res (Heap Int) Gray} {w ht : Nat} {B : Nat → Nat → Bool} (hl : Labeller.Reachable h l)
    (hm : Makes r h binary w ht (fun x y => b2i (B x y))) (hsize : 8 * ((w + 2) * (ht + 2)) < P32)
    (lv : labeled.Valid h) (lc : labeled.CanBe w ht) (ls : labeled.stride < 2147483647)
    (hne : binary.buf ≠ labeled.buf) (hf1 : labeled.buf ≠ l.border.buf) (hf2 : binary.buf ≠ l.border.buf) (hfuel : 8 * (w * ht) ≤ fuel) :
    ∃ b h1, r = .ok b h1 ∧ b.width = w ∧ b.height = ht ∧ Labeller.Reachable h1 l ∧ l.Accepts h1 b labeled (fun x y => b2i (B x y)) fuel ∧
      Produced h h1 binary b w ht (fun x y => b2i (B x y)) := by
  obtain ⟨b, h1, e, p⟩ := hm
  have bv : l.border.Valid h := hl.ready.valid
  have hb : ∀ n, n < h.next → n ≠ binary.buf → b.buf ≠ n := fun n hn hne => by
    rcases p.buf with ⟨e, -⟩ | hl
    · rw [e]; exact Ne.symm hne
    · omega
  refine ⟨b, h1, e, p.width, p.height, hl.elsewhere (fun i => p.frame _ _ (Ne.symm hf2) bv.lt_next) (p.alive _ (Ne.symm hf2) bv.lt_next), ?_, p⟩
  have lv1 : labeled.Valid h1 := lv.transfer (by rw [p.alive _ (Ne.symm hne) lv.lt_next]; exact lv.live)
    (fun i hi => by rw [p.frame _ _ (Ne.symm hne) lv.lt_next]; exact lv.cells i hi)
  exact {
    valid := p.valid
    shows := fun x y hx hy => p.pix x y (by rw [← p.width]; exact hx) (by rw [← p.height]; exact hy)
    bits := fun x y _ _ => by cases B x y <;> simp [b2i]
    size := by rw [p.width, p.height]; exact hsize
    labelValid := lv1
    labelShape := by rw [p.width, p.height]; exact lc
    labelStride := ls
    apart := Or.inl (hb _ lv.lt_next (Ne.symm hne))
    foreign := ⟨hf1, hb _ bv.lt_next (Ne.symm hf2)⟩
    fuelEnough := by rw [p.width, p.height]; exact hfuel }

/-- The pixels which are selected, in the coordinates in which contours are described. -/
def Chosen (w ht : Nat) (B : Nat → Nat → Prop) (p : Nat × Nat) : Prop := ∃ x y, x < w ∧ y < ht ∧ B x y ∧ p = (x + 1, y + 1)

theorem black_chosen (w ht : Nat) (B : Nat → Nat → Bool) : Black w ht (fun x y => b2i (B x y)) = Chosen w ht (fun x y => B x y = true) := by
  funext p
  refine propext ⟨fun ⟨x, y, hx, hy, hb, e⟩ => ⟨x, y, hx, hy, ?_, e⟩, fun ⟨x, y, hx, hy, hb, e⟩ => ⟨x, y, hx, hy, ?_, e⟩⟩
  · cases hB : B x y
    · simp [b2i, hB] at hb
    · exact hB
  · simp [b2i, hb]

/-- A filter which selects pixels, followed by the contour finder: there is a label for every connected component of the selected
pixels, the contours are the boundaries of these components, and nothing changes but the two images and those of the labeller. -/
theorem C94_filter_contours {m : M Int Gray} {w ht : Nat} {B : Nat → Nat → Bool} (hl : Labeller.Reachable h l)
    (hm : Makes (m h) h binary w ht (fun x y => b2i (B x y))) (hsize : 8 * ((w + 2) * (ht + 2)) < P32)
    (lv : labeled.Valid h) (lc : labeled.CanBe w ht) (ls : labeled.stride < 2147483647)
    (hne : binary.buf ≠ labeled.buf) (hf1 : labeled.buf ≠ l.border.buf) (hf2 : binary.buf ≠ l.border.buf) (hfuel : 8 * (w * ht) ≤ fuel) :
    ∃ (l' : Labeller) (lab : Gray) (h' : Heap Int), (do
        let b ← m
        l.process fuel b labeled : M Int (Labeller × Gray)) h = .ok (l', lab) h' ∧
      lab.width = w ∧ lab.height = ht ∧ lab.Valid h' ∧
      (∃ g : Nat → Nat → Nat, lab.Shows h' (fun x y => (g x y : Int)) ∧
        (∀ x y, x < w → y < ht → (B x y = true ↔ g x y ≠ 0) ∧ g x y ≤ l'.contours.length) ∧
        (∀ k, 1 ≤ k → k ≤ l'.contours.length → ∃ x y, x < w ∧ y < ht ∧ g x y = k) ∧
        (∀ x y x' y', x < w → y < ht → x' < w → y' < ht → B x y = true → B x' y' = true →
          (g x y = g x' y' ↔ Linked l.rule (Chosen w ht (fun x y => B x y = true)) (x + 1, y + 1) (x' + 1, y' + 1)))) ∧
      (∃ (sides : List ((Nat × Nat) × (Nat × Nat))) (paths : List (List (Nat × Nat))) (external : Nat → Bool),
        OnePerBoundary l.rule (Chosen w ht (fun x y => B x y = true)) sides ∧ paths.length = sides.length ∧
        (∀ i s path, sides[i]? = some s → paths[i]? = some path →
          Around l.rule (Chosen w ht (fun x y => B x y = true)) s path ∧
          (external i = true ↔ Outer l.rule (Chosen w ht (fun x y => B x y = true)) s.1 s.2)) ∧
        Observes l'.packedPoints (paths.mapIdx (fun i path =>
          if l.limits.Keeps (external i) path.length then path.map pointOf else []))) ∧
      (∀ b i, b ≠ binary.buf → b ≠ labeled.buf → b ≠ l.border.buf → b < h.next → h'.cell b i = h.cell b i) ∧
      Labeller.Reachable h' l' := by
  obtain ⟨b, h1, e, bw, bh, hl1, ha, p⟩ := after_filter hl hm hsize lv lc ls hne hf1 hf2 hfuel
  obtain ⟨l', lab, h', e2, w1, w2, w3, -, -, fr, -⟩ := C67_process_succeeds hl1 ha
  obtain ⟨g, hg, lb⟩ := C62_labels hl1 ha e2
  obtain ⟨sides, paths, external, s1, s2, s3, s4, -⟩ := C63_boundaries hl1 ha e2
  rw [bw, bh, black_chosen] at s1 s3
  rw [bw, bh] at lb
  have nn : ∀ x y, x < w → y < ht → 0 ≤ g x y ∧ (B x y = true ↔ g x y ≠ 0) ∧ g x y ≤ l'.contours.length := fun x y hx hy => by
    have h0 := lb.background x y hx hy
    cases hB : B x y with
    | true =>
      have := lb.range x y hx hy (by simp [b2i, hB])
      exact ⟨by omega, ⟨fun _ => by omega, fun _ => rfl⟩, this.2⟩
    | false =>
      have : g x y = 0 := h0.2 (by simp [b2i, hB])
      exact ⟨by omega, ⟨fun hc => by simp at hc, fun hc => absurd this hc⟩, by omega⟩
  refine ⟨l', lab, h', (M.bind_ok e).trans e2, w1.trans bw, w2.trans bh, w3, ⟨fun x y => (g x y).toNat, fun x y hx hy => ?_, fun x y hx hy => ?_,
    fun k k1 k2 => ?_, fun x y x' y' hx hy hx' hy' b1 b2 => ?_⟩, ⟨sides, paths, external, s1, s2, s3, s4⟩, fun b i n1 n2 n3 hlt => ?_,
    .process hl1 ha e2⟩
  · have := nn x y (by omega) (by omega)
    show _ = some (((g x y).toNat : Nat) : Int)
    rw [Int.toNat_of_nonneg this.1]; exact hg x y hx hy
  · obtain ⟨a1, a2, a3⟩ := nn x y hx hy
    refine ⟨a2.trans ?_, ?_⟩
    · beta_reduce
      constructor <;> intro _ <;> omega
    · beta_reduce; omega
  · obtain ⟨x, y, hx, hy, -, e⟩ := lb.onto k k1 k2
    exact ⟨x, y, hx, hy, by beta_reduce; omega⟩
  · have c := lb.component x y x' y' hx hy hx' hy' (by simp [b2i, b1]) (by simp [b2i, b2])
    rw [black_chosen] at c
    have := (nn x y hx hy).1
    have := (nn x' y' hx' hy').1
    rw [← c]
    beta_reduce
    constructor <;> intro _ <;> omega
  · rw [fr b i n2 n3 (by have := p.nextLe; omega), p.frame b i n1 hlt]

/-- For the fixed threshold: the components of the pixels which are at most (or more than) the threshold. -/
theorem C94_threshold_contours (thr : Int) (down : Bool) (hl : Labeller.Reachable h l)
    (hi : input.Valid h) (hf : input.Shows h f) (bv : binary.Valid h) (bc : binary.CanBe input.width input.height)
    (bs : input.SepOrSame binary input.width input.height)
    (hsize : 8 * ((input.width + 2) * (input.height + 2)) < P32)
    (lv : labeled.Valid h) (lc : labeled.CanBe input.width input.height) (ls : labeled.stride < 2147483647)
    (hne : binary.buf ≠ labeled.buf) (hf1 : labeled.buf ≠ l.border.buf) (hf2 : binary.buf ≠ l.border.buf)
    (hfuel : 8 * (input.width * input.height) ≤ fuel) :
    ∃ (l' : Labeller) (lab : Gray) (h' : Heap Int), (do
        let b ← ThresholdOps.threshold (fun a b => decide (a ≤ b)) (fun a b => decide (b < a)) b2i 0 input thr down binary
        l.process fuel b labeled : M Int (Labeller × Gray)) h = .ok (l', lab) h' ∧
      ∃ g : Nat → Nat → Nat, lab.Shows h' (fun x y => (g x y : Int)) ∧
        (∀ x y, x < input.width → y < input.height → (g x y = 0 ↔ if down then thr < f x y else f x y ≤ thr)) ∧
        (∀ x y x' y', x < input.width → y < input.height → x' < input.width → y' < input.height → g x y ≠ 0 → g x' y' ≠ 0 →
          (g x y = g x' y' ↔ Linked l.rule (Chosen input.width input.height (fun x y => if down then f x y ≤ thr else thr < f x y))
            (x + 1, y + 1) (x' + 1, y' + 1))) ∧
        (∀ k, (1 ≤ k ∧ k ≤ l'.contours.length) ↔ k ≠ 0 ∧ ∃ x y, x < input.width ∧ y < input.height ∧ g x y = k) := by
  obtain ⟨b, h1, e, p, -⟩ := C33_threshold (fun a b => decide (a ≤ b)) (fun a b => decide (b < a)) b2i 0 thr down hi bv hf bc bs
  have hB : ∀ x y, ((if down then decide (f x y ≤ thr) else decide (thr < f x y)) = true ↔ if down then f x y ≤ thr else thr < f x y) := fun x y => by
    cases down <;> simp
  obtain ⟨l', lab, h', e2, w1, w2, -, ⟨g, g1, g2, g3, g4⟩, -⟩ := C94_filter_contours
    (B := fun x y => if down then decide (f x y ≤ thr) else decide (thr < f x y)) hl ⟨b, h1, e, p⟩ hsize lv lc ls hne hf1 hf2 hfuel
  simp only [hB] at g2 g4
  refine ⟨l', lab, h', e2, g, g1, fun x y hx hy => ?_, fun x y x' y' hx hy hx' hy' n1 n2 => ?_, fun k => ⟨fun hk => ?_, fun ⟨k0, x, y, hx, hy, e⟩ => ?_⟩⟩
  · have := (g2 x y hx hy).1
    rw [← not_iff_not, ← ne_eq, ← this]
    cases down <;> simp
  · exact g4 x y x' y' hx hy hx' hy' ((g2 x y hx hy).1.2 n1) ((g2 x' y' hx' hy').1.2 n2)
  · exact ⟨by omega, g3 k hk.1 hk.2⟩
  · have := (g2 x y hx hy).2
    omega

/-- Two thresholds on the same picture: a higher one (when dark pixels are selected) or a lower one (when bright ones are) keeps every pixel
which was selected, and never separates two pixels of one region. -/
theorem C94_thresholds_nest (thr thr' : Int) (down : Bool) (hthr : if down then thr ≤ thr' else thr' ≤ thr) (hl : Labeller.Reachable h l)
    (hi : input.Valid h) (hf : input.Shows h f) (bv : binary.Valid h) (bc : binary.CanBe input.width input.height)
    (bs : input.SepOrSame binary input.width input.height)
    (hsize : 8 * ((input.width + 2) * (input.height + 2)) < P32)
    (lv : labeled.Valid h) (lc : labeled.CanBe input.width input.height) (ls : labeled.stride < 2147483647)
    (hne : binary.buf ≠ labeled.buf) (hf1 : labeled.buf ≠ l.border.buf) (hf2 : binary.buf ≠ l.border.buf)
    (hfuel : 8 * (input.width * input.height) ≤ fuel) :
    ∃ (l₁ l₂ : Labeller) (lab₁ lab₂ : Gray) (h₁ h₂ : Heap Int) (g₁ g₂ : Nat → Nat → Nat),
      (do let b ← ThresholdOps.threshold (fun a b => decide (a ≤ b)) (fun a b => decide (b < a)) b2i 0 input thr down binary
          l.process fuel b labeled : M Int (Labeller × Gray)) h = .ok (l₁, lab₁) h₁ ∧
      (do let b ← ThresholdOps.threshold (fun a b => decide (a ≤ b)) (fun a b => decide (b < a)) b2i 0 input thr' down binary
          l.process fuel b labeled : M Int (Labeller × Gray)) h = .ok (l₂, lab₂) h₂ ∧
      lab₁.Shows h₁ (fun x y => (g₁ x y : Int)) ∧ lab₂.Shows h₂ (fun x y => (g₂ x y : Int)) ∧
      (∀ x y, x < input.width → y < input.height → g₁ x y ≠ 0 → g₂ x y ≠ 0) ∧
      (∀ x y x' y', x < input.width → y < input.height → x' < input.width → y' < input.height →
        g₁ x y ≠ 0 → g₁ x y = g₁ x' y' → g₂ x y = g₂ x' y') := by
  obtain ⟨l₁, lab₁, h₁, e₁, g₁, s₁, z₁, c₁, -⟩ := C94_threshold_contours thr down hl hi hf bv bc bs hsize lv lc ls hne hf1 hf2 hfuel
  obtain ⟨l₂, lab₂, h₂, e₂, g₂, s₂, z₂, c₂, -⟩ := C94_threshold_contours thr' down hl hi hf bv bc bs hsize lv lc ls hne hf1 hf2 hfuel
  have keep : ∀ x y, x < input.width → y < input.height → g₁ x y ≠ 0 → g₂ x y ≠ 0 := fun x y hx hy n => by
    rw [Ne, z₁ x y hx hy] at n
    rw [Ne, z₂ x y hx hy]
    cases down <;> simp only [if_true, if_false, Bool.false_eq_true] at n hthr ⊢ <;> omega
  refine ⟨l₁, l₂, lab₁, lab₂, h₁, h₂, g₁, g₂, e₁, e₂, s₁, s₂, keep, fun x y x' y' hx hy hx' hy' n e => ?_⟩
  have n' : g₁ x' y' ≠ 0 := e ▸ n
  refine (c₂ x y x' y' hx hy hx' hy' (keep _ _ hx hy n) (keep _ _ hx' hy' n')).2 (((c₁ x y x' y' hx hy hx' hy' n n').1 e).mono ?_)
  rintro p ⟨u, v, hu, hv, hb, e⟩
  refine ⟨u, v, hu, hv, ?_, e⟩
  cases down <;> simp only [if_true, if_false, Bool.false_eq_true] at hb hthr ⊢ <;> omega

/-- A grey picture, thresholded in place: the ring of dark pixels and the single one are found. -/
example : (match (do
      let b ← ThresholdOps.threshold (fun a b => decide (a ≤ b)) (fun a b => decide (b < a)) b2i 0 demoPicture 50 true demoPicture
      (demoLabeller .eight).process 1000 b demoLabels : M Int (Labeller × Gray))
      ⟨[some [10, 50, 30, 99, 80,  0, 51, 49, 70, 20,  11, 12, 13, 200, 255], some [7, 7], some []]⟩ with
      | .ok r h' => (h'.get r.2.buf, r.1.contours) | _ => (none, [])) =
    (some [1, 1, 1, 0, 0,  1, 0, 1, 0, 2,  1, 1, 1, 0, 0], [⟨1, 0, [1]⟩, ⟨2, 2, []⟩]) ∧
    demoPicture.Valid (⟨[some [10, 50, 30, 99, 80,  0, 51, 49, 70, 20,  11, 12, 13, 200, 255], some [7, 7], some []]⟩ : Heap Int) ∧
    demoPicture.SepOrSame demoPicture 5 3 := by
  refine ⟨by decide +kernel, by decide, Or.inl rfl⟩

example (r : ConnectRule) : Labeller.Reachable ⟨[some [10, 50, 30, 99, 80,  0, 51, 49, 70, 20,  11, 12, 13, 200, 255], some [7, 7], some []]⟩
    (demoLabeller r) :=
  .new (rule := r) (junk := demoJunk) (h := ⟨[some [10, 50, 30, 99, 80,  0, 51, 49, 70, 20,  11, 12, 13, 200, 255], some [7, 7]]⟩) rfl

end Boof
