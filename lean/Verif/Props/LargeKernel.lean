import Verif.Props.KernelDomain
import Verif.Props.Convolve
/-
C49 for 2D kernels of 65536 or more columns, whose number of coefficients does not fit into 32 bits.
-/
namespace Boof
open M
variable {V S : Type}

theorem M.loop_throw_first {n : Nat} {body : Nat → M V Unit} {h h' : Heap V} (hn : 0 < n) (hb : body 0 h = .throw h') : M.loop n body h = .throw h' := by
  induction n with
  | zero => omega
  | succ n ih =>
    rcases Nat.eq_zero_or_pos n with e | e
    · subst e
      exact (M.bind_ok rfl).trans hb
    · exact M.bind_throw (ih e)

/-- `ConvolveImage::convolve` with a kernel of 65536 or more columns, as the library makes them (`C42_new2D_all`), throws for every image with a pixel:
the output has been reshaped, and nothing else has changed.  For arithmetic in which multiplying and adding is always defined. -/
theorem C49_large (z : V) (A : Arith V S) (hA : ∀ s c v, ∃ t, A.mac s c v = some t) {k : Kernel S} {kw o : Nat} (b : Border V)
    {h : Heap V} {input output : Gray} {f : Nat → Nat → V}
    (hi : input.Valid h) (ho : output.Valid h) (hf : input.Shows h f)
    (hc : output.CanBe input.width input.height) (hs : input.Sep output input.width input.height)
    (kwd : k.width = kw) (kof : k.offset = o) (hok : o < kw) (hkw : 65536 ≤ kw) (ksz : k.data.size = kw * kw % 4294967296)
    (kln : k.data.size ≤ k.data.data.length) (w0 : 0 < input.width) (h0 : 0 < input.height)
    (hw : input.width + kw ≤ 2147483648) (hh : input.height + kw ≤ 2147483648)
    (hrx : b.Reach input.width o (kw - 1 - o)) (hry : b.Reach input.height o (kw - 1 - o)) :
    ∃ out h', Reshaped h h' output out input.width input.height ∧ ConvolveImage.convolve z A k b input output h = .throw h' := by
  have area : input.width * input.height < 4294967296 := hi.area_lt
  obtain ⟨g, h1, e, hr⟩ := reshape_spec z ho hi.widthLt hi.heightLt hi.area_lt hc
  obtain ⟨v1, px, -⟩ := hr.input hi hs
  have hf1 : input.Shows h1 f := fun x y hx hy => by rw [px]; exact hf x y hx hy
  refine ⟨g, h1, hr, ?_⟩
  unfold ConvolveImage.convolve
  refine (M.bind_ok e).trans (M.bind_throw ?_)
  have big : k.width ≥ g.width ∨ k.width ≥ g.height := by
    rw [hr.width, hr.height, kwd]
    by_contra c
    have := Nat.mul_le_mul (show 65536 ≤ input.width by omega) (show 65536 ≤ input.height by omega)
    omega
  rw [if_pos big]
  unfold ConvolveNaive.convolve
  refine M.loop_throw_first h0 (M.loop_throw_first w0 (M.bind_throw ?_))
  rw [kwd, kof]
  -- the first coefficient without room
  have kk : 4294967296 ≤ kw * kw := Nat.mul_le_mul hkw hkw
  have hsize : kw * kw % 4294967296 < kw * kw := by omega
  have hx : kw * kw % 4294967296 % kw < kw := Nat.mod_lt _ (by omega)
  have hy : kw * kw % 4294967296 / kw < kw := Nat.div_lt_of_lt_mul hsize
  have hxy : kw * kw % 4294967296 / kw * kw + kw * kw % 4294967296 % kw = kw * kw % 4294967296 := by
    rw [Nat.mul_comm]; exact Nat.div_add_mod _ _
  have step : ∀ j i s, j < kw → i < kw → (do
        let c ← Kernel2D.at' k i j
        let v ← b.get input (toS32 (wrap32 (sub32 0 o + i))) (toS32 (wrap32 (sub32 0 o + j)))
        opt (A.mac s c v) : M V S) h1 = .throw h1 ∨ ∃ s', (do
        let c ← Kernel2D.at' k i j
        let v ← b.get input (toS32 (wrap32 (sub32 0 o + i))) (toS32 (wrap32 (sub32 0 o + j)))
        opt (A.mac s c v) : M V S) h1 = .ok s' h1 ∧ True := by
    intro j i s hj hi'
    by_cases c : wrap32 (j * kw + i) ≥ k.data.size
    · left
      refine M.bind_throw ?_
      unfold Kernel2D.at'
      rw [kwd, if_neg (by omega), if_pos c]
      rfl
    · right
      have lt : wrap32 (j * kw + i) < k.data.data.length := by omega
      have e1 : Kernel2D.at' k i j h1 = .ok (k.data.data[wrap32 (j * kw + i)]) h1 := by
        unfold Kernel2D.at' Kernel.get
        rw [kwd, if_neg (by omega), if_neg c, List.getElem?_eq_getElem lt]
        rfl
      have e2 := Border.get_ext (x := toS32 (wrap32 (sub32 0 o + i))) (y := toS32 (wrap32 (sub32 0 o + j))) v1 hf1 w0 h0 (by omega) (by omega) hrx hry
        (by rw [toS32_sub (by omega) (by omega) (by omega)]; unfold IsS32; omega) (by rw [toS32_sub (by omega) (by omega) (by omega)]; unfold IsS32; omega)
        (by rw [toS32_sub (by omega) (by omega) (by omega)]; omega) (by rw [toS32_sub (by omega) (by omega) (by omega)]; omega)
        (by rw [toS32_sub (by omega) (by omega) (by omega)]; omega) (by rw [toS32_sub (by omega) (by omega) (by omega)]; omega)
      obtain ⟨t, e3⟩ := hA s (k.data.data[wrap32 (j * kw + i)])
        (b.ext input.width input.height f (toS32 (wrap32 (sub32 0 o + i))) (toS32 (wrap32 (sub32 0 o + j))))
      refine ⟨t, (M.bind_ok e1).trans ((M.bind_ok e2).trans ?_), trivial⟩
      rw [e3]
      rfl
  have row : ∀ j s, j < kw → ∀ m, m ≤ kw → (M.loopS m s (fun i s => (do
        let c ← Kernel2D.at' k i j
        let v ← b.get input (toS32 (wrap32 (sub32 0 o + i))) (toS32 (wrap32 (sub32 0 o + j)))
        opt (A.mac s c v) : M V S))) h1 = .throw h1 ∨ ∃ s', (M.loopS m s (fun i s => (do
        let c ← Kernel2D.at' k i j
        let v ← b.get input (toS32 (wrap32 (sub32 0 o + i))) (toS32 (wrap32 (sub32 0 o + j)))
        opt (A.mac s c v) : M V S))) h1 = .ok s' h1 ∧ True := by
    intro j s hj m hm
    induction m with
    | zero => exact Or.inr ⟨s, rfl, trivial⟩
    | succ m ih =>
      rcases ih (by omega) with e | ⟨s', e, -⟩
      · exact Or.inl (M.bind_throw e)
      · rcases step j m s' hj (by omega) with e' | ⟨s'', e', -⟩
        · exact Or.inl ((M.bind_ok e).trans e')
        · exact Or.inr ⟨s'', (M.bind_ok e).trans e', trivial⟩
  refine loopS_throws (fun _ => True) trivial (fun j s hj _ => row j s hj kw (Nat.le_refl kw)) ⟨_, hy, fun s _ => ?_⟩
  refine loopS_throws (fun _ => True) trivial (fun i s hi' _ => step _ i s hy hi') ⟨_, hx, fun s _ => ?_⟩
  refine M.bind_throw ?_
  unfold Kernel2D.at'
  rw [kwd, if_neg (by omega), hxy, if_pos]
  · rfl
  · rw [ksz]; unfold wrap32 P32; omega

/-- The kernel `Kernel2D(65537,3)` on an image of 2×1 pixels. -/
example : ∃ k, Kernel2D.new (⟨id, 8, 0, fun _ => 7⟩ : GrowArray.Elem ℚ) 65537 3 (⟨[some [1, 2], some [0, 0]]⟩ : Heap ℚ) =
      .ok k ⟨[some [1, 2], some [0, 0]]⟩ ∧
    ∃ h', ConvolveImage.convolve 0 (fieldArith ℚ) k .extend ⟨0, 2, 2, 1, 0, 2, false⟩ ⟨1, 2, 2, 1, 0, 2, false⟩ ⟨[some [1, 2], some [0, 0]]⟩ =
      .throw h' := by
  obtain ⟨k, e, kwd, kof, ksz, kln, -⟩ := C42_new2D_all (V := ℚ) (⟨id, 8, 0, fun _ => 7⟩ : GrowArray.Elem ℚ) rfl (w := 65537) (o := 3) (by decide)
    ⟨[some [1, 2], some [0, 0]]⟩
  have val : ∀ b : Nat, b < 2 → (⟨b, 2, 2, 1, 0, 2, false⟩ : Gray).Valid (⟨[some [1, 2], some [0, 0]]⟩ : Heap ℚ) := by
    intro b hb
    have hb : b = 0 ∨ b = 1 := by omega
    refine ⟨by rcases hb with rfl | rfl <;> rfl, ?_, by show 2 < P32; decide, by show 2 < P32; decide, by show 1 < P32; decide, by show 2 ≤ 2; decide,
      ?_, fun _ => ⟨rfl, rfl⟩⟩
    · intro i hi
      change i < 2 at hi
      have hi : i = 0 ∨ i = 1 := by omega
      rcases hb with rfl | rfl <;> rcases hi with rfl | rfl <;> exact ⟨_, rfl⟩
    · intro y hy
      change y < 1 at hy
      show 0 + y * 2 + 2 ≤ 2
      omega
  refine ⟨k, e, ?_⟩
  obtain ⟨-, h', -, e'⟩ := C49_large (kw := 65537) (o := 3) 0 (fieldArith ℚ) (fun s c v => ⟨_, rfl⟩) .extend (val 0 (by omega)) (val 1 (by omega))
    (f := fun x _ => if x = 0 then 1 else 2)
    (by
      intro x y hx hy
      change x < 2 at hx
      change y < 1 at hy
      have hx : x = 0 ∨ x = 1 := by omega
      have hy : y = 0 := by omega
      subst hy
      rcases hx with rfl | rfl <;> rfl)
    (Or.inl rfl) (Or.inl (by decide)) kwd kof (by decide) (by decide) ksz kln (by decide) (by decide) (by decide) (by decide) trivial trivial
  exact ⟨h', e'⟩

end Boof
