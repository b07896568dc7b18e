import Verif.Proofs.BlurRun
import Verif.Model.RoundedLocal
namespace Boof
open M
variable {V : Type}

theorem Thresholded.congr {h h' : Heap V} {g g' a a' b b' : Gray} {w ht : Nat} {f f2 : Nat → Nat → V}
    (hp : Thresholded h h' g g' a a' b b' w ht f) (e : ∀ x y, x < w → y < ht → f x y = f2 x y) :
    Thresholded h h' g g' a a' b b' w ht f2 :=
  { hp with pix := fun x y hx hy => by rw [← e x y hx hy]; exact hp.pix x y hx hy }

theorem Reshaped.next_le {h h1 : Heap V} {g g' : Gray} {w ht : Nat} (hr : Reshaped h h1 g g' w ht) : h.next ≤ h1.next := by
  rcases hr.buf with ⟨_, e⟩ | ⟨_, e⟩
  · rw [e]
  · omega

theorem Reshaped.buf_ne {h h1 : Heap V} {g g' a : Gray} {w ht : Nat} (hr : Reshaped h h1 g g' w ht) (ha : a.Valid h)
    (hne : a.buf ≠ g.buf) : a.buf ≠ g'.buf := by
  have := ha.lt_next
  rcases hr.buf with ⟨e, _⟩ | ⟨e, _⟩ <;> omega

theorem Reshaped.shows {h h1 : Heap V} {g g' a : Gray} {w ht : Nat} {f : Nat → Nat → V} (hr : Reshaped h h1 g g' w ht)
    (ha : a.Valid h) (hs : a.Sep g w ht) (hf : a.Shows h f) : a.Shows h1 f := fun x y hx hy => by
  rw [(hr.input ha hs).2.1]; exact hf x y hx hy

/-- Separation from a reshaped image. -/
theorem Reshaped.sep {h h1 : Heap V} {g g' a : Gray} {w ht : Nat} (hr : Reshaped h h1 g g' w ht)
    (ha : a.Valid h) (hs : a.Sep g w ht) : a.Sep g' w ht :=
  Or.inr ⟨hr.width, hr.height, (hr.input ha hs).2.2⟩

theorem M.bind_ok_inv {α β : Type} {m : M V α} {k : α → M V β} {h h' : Heap V} {r : β} (e : (m >>= k) h = .ok r h') :
    ∃ a h1, m h = .ok a h1 ∧ k a h1 = .ok r h' := by
  cases hm : m h with
  | ok a h1 => exact ⟨a, h1, rfl, by rw [M.bind_ok hm] at e; exact e⟩
  | throw h1 => rw [M.bind_throw hm] at e; cases e
  | ub => rw [M.bind_ub hm] at e; cases e
  | timeout =>
    have : (m >>= k) h = .timeout := by
      show M.bind m k h = _
      unfold M.bind
      rw [hm]
    rw [this] at e; cases e

/-- The array of the storage is kept or becomes exactly as long as the image. -/
theorem mean_len {z : V} {hor ver : Gray → Gray → Nat → M V Unit} {input output storage : Gray} {r : Nat} {h h' : Heap V}
    {out st : Gray} (ha : input.width * input.height < P32)
    (e : BlurImageOps.mean z hor ver input output r storage h = .ok (out, st) h') :
    st.dataLength = storage.dataLength ∨ st.dataLength = input.width * input.height := by
  unfold BlurImageOps.mean at e
  split at e
  · cases e
  · obtain ⟨o, h1, -, e⟩ := M.bind_ok_inv e
    obtain ⟨s, h2, e2, e⟩ := M.bind_ok_inv e
    obtain ⟨_, h3, -, e⟩ := M.bind_ok_inv e
    obtain ⟨_, h4, -, e⟩ := M.bind_ok_inv e
    cases e
    exact reshape_len ha e2

section
variable {K : Type} [Field K] [LinearOrder K] [IsStrictOrderedRing K] [FloorRing K]

theorem localMean_len {z : V} {hor ver : Gray → Gray → Nat → M V Unit} {toK : V → K} {bit : Bool → V}
    {input output storage1 storage2 : Gray} {width : ConfigLength K} {scale : K} {down : Bool} {h h' : Heap V}
    {out st1 st2 : Gray} (ha : input.width * input.height < P32)
    (e : ThresholdOps.localMean z (fun a b r s => BlurImageOps.mean z hor ver a b r s) toK bit input output width scale down storage1
      storage2 h = .ok (out, st1, st2) h') :
    st2.dataLength = storage2.dataLength ∨ st2.dataLength = input.width * input.height := by
  unfold ThresholdOps.localMean at e
  obtain ⟨o, h1, -, e⟩ := M.bind_ok_inv e
  obtain ⟨a, h2, -, e⟩ := M.bind_ok_inv e
  obtain ⟨b, h3, e3, e⟩ := M.bind_ok_inv e
  obtain ⟨n, h4, -, e⟩ := M.bind_ok_inv e
  obtain ⟨⟨m, s⟩, h5, e5, e⟩ := M.bind_ok_inv e
  obtain ⟨_, h6, -, e⟩ := M.bind_ok_inv e
  cases e
  have h1 := reshape_len ha e3
  have h2 := mean_len ha e5
  omega

theorem opt_bind_some {α β : Type} {o : Option α} {a : α} (e : o = some a) (f : α → M V β) : (opt o >>= f) = f a := by
  subst e; rfl

theorem localMeanR_spec {z : V} {h : Heap V} {input output storage1 storage2 : Gray} {f B G : Nat → Nat → V}
    {width : ConfigLength K} {scale : K} {down : Bool} {n : Nat} {conv : V → Option K} {rnd rndD : K → Option K}
    {W : Nat → Nat → Bool} {bit : Bool → V}
    {blur : Gray → Gray → Nat → Gray → M V (Gray × Gray)}
    (hn : ∀ h : Heap V, width.computeIR rndD ((min input.width input.height : Nat) : K) h = .ok n h)
    (hb : input.width + (n + 1) ≤ 2147483648)
    (hi : input.Valid h) (ho : output.Valid h) (hs1 : storage1.Valid h) (hs2 : storage2.Valid h) (hf : input.Shows h f)
    (hc : output.CanBe input.width input.height) (hc1 : storage1.CanBe input.width input.height)
    (hc2 : storage2.CanBe input.width input.height)
    (ds : input.Sep output input.width input.height) (d1 : input.Sep storage1 input.width input.height)
    (d2 : input.Sep storage2 input.width input.height)
    (n1 : storage1.buf ≠ output.buf) (n2 : storage2.buf ≠ output.buf) (n12 : storage2.buf ≠ storage1.buf)
    (hblur : ∀ h3 a b, input.Valid h3 → a.Valid h3 → b.Valid h3 → input.Shows h3 f →
      a.CanBe input.width input.height → b.CanBe input.width input.height →
      input.Sep a input.width input.height → input.Sep b input.width input.height → b.buf ≠ a.buf →
      (b.dataLength = storage2.dataLength ∨ b.dataLength = input.width * input.height) →
      Spec (blur input a (n / 2) b) h3 (fun r h4 => Produced2 h3 h4 a r.1 b r.2 input.width input.height B G ∧
        input.Valid h4 ∧ input.Shows h4 f))
    (hW : ∀ x y, x < input.width → y < input.height →
      ThresholdOps.localBit rnd conv scale down (f x y) (B x y) = some (W x y)) :
    Spec (ThresholdOps.localMeanR rnd rndD z blur conv bit input output width scale down storage1 storage2) h
      (fun r h' => Thresholded h h' output r.1 storage1 r.2.1 storage2 r.2.2 input.width input.height
        (fun x y => bit (W x y)) ∧
        input.Valid h' ∧ input.Shows h' f) := by
  unfold ThresholdOps.localMeanR
  refine Spec.bind (reshape_spec z ho hi.widthLt hi.heightLt hi.area_lt hc) (fun o' h1 r1 => ?_)
  obtain ⟨vi1, pi1, di1⟩ := r1.input hi ds
  have fi1 := r1.shows hi ds hf
  obtain ⟨vs1, -, -⟩ := r1.input hs1 (Or.inl n1 : storage1.Sep output input.width input.height)
  obtain ⟨vs2, -, -⟩ := r1.input hs2 (Or.inl n2 : storage2.Sep output input.width input.height)
  have b1 := r1.buf_ne hs1 n1
  have b2 := r1.buf_ne hs2 n2
  refine Spec.bind (reshape_spec z vs1 hi.widthLt hi.heightLt hi.area_lt hc1) (fun a h2 r2 => ?_)
  obtain ⟨vi2, pi2, di2⟩ := r2.input vi1 d1
  have fi2 := r2.shows vi1 d1 fi1
  obtain ⟨vs3, -, -⟩ := r2.input vs2 (Or.inl n12 : storage2.Sep storage1 input.width input.height)
  obtain ⟨vo2, -, -⟩ := r2.input r1.valid (Or.inl (Ne.symm b1) : o'.Sep storage1 input.width input.height)
  have b3 := r2.buf_ne vs2 n12
  have b4 := r2.buf_ne r1.valid (Ne.symm b1)
  obtain ⟨b, h3, e3, r3⟩ := reshape_spec z vs3 hi.widthLt hi.heightLt hi.area_lt hc2
  have hlen := reshape_len hi.area_lt e3
  refine Spec.bind_eq e3 ?_
  obtain ⟨vi3, pi3, di3⟩ := r3.input vi2 d2
  have fi3 := r3.shows vi2 d2 fi2
  obtain ⟨va3, -, -⟩ := r3.input r2.valid (Or.inl (Ne.symm b3) : a.Sep storage2 input.width input.height)
  obtain ⟨vo3, -, -⟩ := r3.input vo2 (Or.inl (Ne.symm b2) : o'.Sep storage2 input.width input.height)
  have b5 := r3.buf_ne r2.valid (Ne.symm b3)
  have b6 := r3.buf_ne vo2 (Ne.symm b2)
  refine Spec.bind_eq (hn h3) ?_
  have hr : toU32 (n : Int) / 2 = n / 2 := by
    rw [toU32_of_nonneg (by omega) (by unfold P32; omega)]; omega
  simp only [hr]
  refine Spec.bind (hblur h3 a b vi3 va3 r3.valid fi3 (Or.inr ⟨r2.width, r2.height⟩) (Or.inr ⟨r3.width, r3.height⟩)
    (Or.inr ⟨r2.width, r2.height, di2⟩) (Or.inr ⟨r3.width, r3.height, di3⟩) (Ne.symm b5) hlen) (fun r h4 hp => ?_)
  obtain ⟨m, st⟩ := r
  obtain ⟨hp, vi4, fi4⟩ := hp
  simp only [] at hp ⊢
  -- the output is untouched by the blur
  have vo4 : o'.Valid h4 := by
    have hlt := vo3.lt_next
    refine vo3.transfer (by rw [hp.alive _ b4 b6 hlt]; exact vo3.live) (fun i hi => ?_)
    rw [hp.frame _ _ b4 b6 hlt]; exact vo3.cells i hi
  have hmo : m.buf ≠ o'.buf := by
    have := vo3.lt_next
    rcases hp.buf with e | e <;> omega
  have hmp : Pixels h4 o' (fun x y => bit (W x y)) m B :=
    (Gray.Disjoint.of_buf hmo).pixels hp.valid (fun x y hx hy => hp.pix x y (by rw [← hp.width]; exact hx) (by rw [← hp.height]; exact hy))
  have hip : Pixels h4 o' (fun x y => bit (W x y)) input f := di1.pixels vi4 fi4
  have hpaint : Paints h4 o' (fun x y => bit (W x y)) (loop input.height (fun y => do
    let meanPtr := wrap32 (m.offset + y * m.stride)
    let inputPtr := wrap32 (input.offset + y * input.stride)
    let outputPtr := wrap32 (o'.offset + y * o'.stride)
    loop input.width (fun i => do
      let v ← rd input.buf (inputPtr + i)
      let m ← rd m.buf (meanPtr + i)
      let b ← opt (ThresholdOps.localBit rnd conv scale down v m)
      wr o'.buf (outputPtr + i) (bit b)))) (fun _ _ => True) := by
    have ew := r1.width
    have eh := r1.height
    refine (Paints.loop (R := fun y x' y' => ∃ x, x < input.width ∧ x' = x ∧ y' = y) (fun y hy => ?_)).congr
      (fun x y hx hy => ⟨fun _ => trivial, fun _ => ⟨y, by omega, x, by omega, rfl, rfl⟩⟩)
    rw [hip.valid.row_eq hy, hmp.valid.row_eq (by rw [hp.height]; exact hy), vo4.row_eq (by omega)]
    refine Paints.loop (R := fun x x' y' => x' = x ∧ y' = y) (fun x hx => ?_)
    refine Paints.bind (hip.read x y _ hx hy rfl) ?_
    refine Paints.bind (hmp.read x y _ (by rw [hp.width]; exact hx) (by rw [hp.height]; exact hy) rfl) ?_
    rw [opt_bind_some (hW x y hx hy)]
    exact Paints.wr vo4 (by omega) (by omega) rfl rfl
  refine Spec.bind (hpaint.done (fun _ _ _ _ => trivial)) (fun _ h5 hq => ?_)
  obtain ⟨vi5, fi5⟩ := hq.reads vo4 vi4 di1 fi4
  have l1 := r1.next_le
  have l2 := r2.next_le
  have l3 := r3.next_le
  have l4 := hp.nextLe
  have c1 : ∀ n, n ≠ output.buf → n < h.next → n ≠ o'.buf := fun n q1 q4 => by
    rcases r1.buf with ⟨e, _⟩ | ⟨e, _⟩ <;> omega
  have c2 : ∀ n, n ≠ storage1.buf → n < h.next → n ≠ a.buf := fun n q1 q4 => by
    rcases r2.buf with ⟨e, _⟩ | ⟨e, _⟩ <;> omega
  have c3 : ∀ n, n ≠ storage2.buf → n < h.next → n ≠ b.buf := fun n q1 q4 => by
    rcases r3.buf with ⟨e, _⟩ | ⟨e, _⟩ <;> omega
  obtain ⟨em, -⟩ := hp.inPlace r2.width r2.height
  obtain ⟨es, -⟩ := hp.sInPlace r3.width r3.height
  subst em es
  have al : ∀ n, n ≠ output.buf → n ≠ storage1.buf → n ≠ storage2.buf → n < h.next → (h5.get n).isSome = (h.get n).isSome := by
    intro n q1 q2 q3 q4
    rw [hq.alive, hp.alive n (c2 n q2 q4) (c3 n q3 q4) (by omega), r3.alive n q3 (by omega), r2.alive n q2 (by omega),
      r1.alive n q1 q4]
  have dead : ∀ {h' : Heap V} {n : Nat}, (h'.get n).isSome = false → h'.get n = none := fun e => by simpa using e
  refine Spec.pure ⟨⟨r1.width, r1.height, hq.valid vo4 vo4, r1.sub, ?_, ?_, al, ?_, ?_, ?_, ⟨r2.width, r2.height, ?_, r2.sub, ?_, ?_⟩,
    ⟨r3.width, r3.height, ?_, r3.sub, ?_, ?_⟩, ⟨Ne.symm b4, Ne.symm b6, Ne.symm b5⟩, ?_, ?_⟩, vi5, fi5⟩
  · exact fun x y hx hy => hq.showsAll x y (by rw [r1.width]; exact hx) (by rw [r1.height]; exact hy)
  · intro n i q1 q2 q3 q4
    rw [hq.frame n i (fun x y _ _ e => c1 n q1 q4 e.1), hp.frame n i (c2 n q2 q4) (c3 n q3 q4) (by omega),
      r3.frame n i q3 (by omega), r2.frame n i q2 (by omega), r1.frame n i q1 q4]
  · intro ew eh
    obtain ⟨eo, e1⟩ := r1.same ew eh
    have hlo := ho.lt_next
    refine ⟨eo, fun i hi => ?_⟩
    rw [hq.frame _ i (fun x y hx hy e => hi x y (by rw [← r1.width]; exact hx) (by rw [← r1.height]; exact hy)
        (by rw [← eo]; exact e.2)),
      hp.frame _ i (c2 _ (Ne.symm n1) hlo) (c3 _ (Ne.symm n2) hlo) (by omega), r3.frame _ i (Ne.symm n2) (by omega),
      r2.frame _ i (Ne.symm n1) (by omega), e1]
  · rcases r1.buf with ⟨e, _⟩ | ⟨e, _⟩
    · exact Or.inl e
    · exact Or.inr (show h.next ≤ o'.buf by omega)
  · rw [hq.next]; omega
  · exact hq.valid vo4 hp.valid
  · rcases r2.buf with ⟨e, _⟩ | ⟨e, _⟩
    · exact Or.inl e
    · exact Or.inr (show h.next ≤ m.buf by omega)
  · intro hne
    rcases r2.memory with ⟨m1, _, _⟩ | ⟨m1, _, m3⟩
    · exact absurd m1 hne
    · have hlt := vs1.lt_next
      refine dead ?_
      rw [hq.alive, hp.alive _ (Ne.symm hne) (c3 _ (Ne.symm n12) hs1.lt_next) (by omega), r3.alive _ (Ne.symm n12) (by omega), m3]; rfl
  · exact hq.valid vo4 hp.svalid
  · rcases r3.buf with ⟨e, _⟩ | ⟨e, _⟩
    · exact Or.inl e
    · exact Or.inr (show h.next ≤ st.buf by omega)
  · intro hne
    rcases r3.memory with ⟨m1, _, _⟩ | ⟨m1, _, m3⟩
    · exact absurd m1 hne
    · have hlt := vs3.lt_next
      refine dead ?_
      rw [hq.alive, hp.alive _ (c2 _ n12 hs2.lt_next) (Ne.symm hne) (by omega), m3]; rfl
  · intro n hn' hl
    show n = o'.buf ∨ n = m.buf ∨ n = st.buf
    rw [hq.alive] at hl
    rcases Nat.decEq n m.buf with k1 | k1
    · rcases Nat.decEq n st.buf with k2 | k2
      · have hl3 : (h3.get n).isSome := by
          rcases Nat.lt_or_ge n h3.next with c | c
          · rw [hp.alive n k1 k2 c] at hl; exact hl
          · rcases hp.fresh n c hl with e | e
            · exact absurd e k1
            · exact absurd e k2
        have hl2 : (h2.get n).isSome := by
          rcases Nat.lt_or_ge n h2.next with c | c
          · have : n ≠ storage2.buf := by have := hs2.lt_next; omega
            rw [r3.alive n this c] at hl3; exact hl3
          · exact absurd (r3.fresh_eq c hl3) k2
        have hl1 : (h1.get n).isSome := by
          rcases Nat.lt_or_ge n h1.next with c | c
          · have : n ≠ storage1.buf := by have := hs1.lt_next; omega
            rw [r2.alive n this c] at hl2; exact hl2
          · exact absurd (r2.fresh_eq c hl2) k1
        exact Or.inl (r1.fresh_eq hn' hl1)
      · exact Or.inr (Or.inr k2)
    · exact Or.inr (Or.inl k1)
  · intro hne
    rcases r1.memory with ⟨m1, _, _⟩ | ⟨m1, _, m3⟩
    · exact absurd m1 hne
    · have hlo := ho.lt_next
      refine dead ?_
      rw [hq.alive, hp.alive _ (c2 _ (Ne.symm n1) hlo) (c3 _ (Ne.symm n2) hlo) (by omega), r3.alive _ (Ne.symm n2) (by omega),
        r2.alive _ (Ne.symm n1) (by omega), m3]; rfl

/-- Without rounding the size is the one of the exact model. -/
theorem computeIR_exact (c : ConfigLength K) (total : K) : (c.computeIR some total : M V Int) = c.computeI total := by
  funext h
  unfold ConfigLength.computeIR ConfigLength.computeR ConfigLength.computeI ConfigLength.compute
  by_cases hc : c.fraction ≥ 0
  · rw [if_pos hc, if_pos hc]; rfl
  · rw [if_neg hc, if_neg hc]; rfl

/-- Without rounding `localMeanR` is `localMean`. -/
theorem localMeanR_exact (z : V) (blur : Gray → Gray → Nat → Gray → M V (Gray × Gray)) (toK : V → K) (bit : Bool → V)
    (input output : Gray) (width : ConfigLength K) (scale : K) (down : Bool) (storage1 storage2 : Gray) :
    ThresholdOps.localMeanR some some z blur (fun v => some (toK v)) bit input output width scale down storage1 storage2 =
      ThresholdOps.localMean z blur toK bit input output width scale down storage1 storage2 := by
  unfold ThresholdOps.localMeanR ThresholdOps.localMean
  have hbit : ∀ v m, ThresholdOps.localBit some (fun v => some (toK v)) scale down v m =
      some (if down then decide (toK v ≤ toK m * scale) else decide (toK v * scale > toK m)) := fun v m => by
    cases down <;> rfl
  simp only [computeIR_exact, hbit]
  rfl

theorem localMean_spec {z : V} {h : Heap V} {input output storage1 storage2 : Gray} {f B G : Nat → Nat → V}
    {width : ConfigLength K} {scale : K} {down : Bool} {n : Nat} {toK : V → K} {bit : Bool → V}
    {blur : Gray → Gray → Nat → Gray → M V (Gray × Gray)}
    (hn : ∀ h : Heap V, width.computeI ((min input.width input.height : Nat) : K) h = .ok n h)
    (hb : input.width + (n + 1) ≤ 2147483648)
    (hi : input.Valid h) (ho : output.Valid h) (hs1 : storage1.Valid h) (hs2 : storage2.Valid h) (hf : input.Shows h f)
    (hc : output.CanBe input.width input.height) (hc1 : storage1.CanBe input.width input.height)
    (hc2 : storage2.CanBe input.width input.height)
    (ds : input.Sep output input.width input.height) (d1 : input.Sep storage1 input.width input.height)
    (d2 : input.Sep storage2 input.width input.height)
    (n1 : storage1.buf ≠ output.buf) (n2 : storage2.buf ≠ output.buf) (n12 : storage2.buf ≠ storage1.buf)
    (hblur : ∀ h3 a b, input.Valid h3 → a.Valid h3 → b.Valid h3 → input.Shows h3 f →
      a.CanBe input.width input.height → b.CanBe input.width input.height →
      input.Sep a input.width input.height → input.Sep b input.width input.height → b.buf ≠ a.buf →
      (b.dataLength = storage2.dataLength ∨ b.dataLength = input.width * input.height) →
      Spec (blur input a (n / 2) b) h3 (fun r h4 => Produced2 h3 h4 a r.1 b r.2 input.width input.height B G ∧
        input.Valid h4 ∧ input.Shows h4 f)) :
    Spec (ThresholdOps.localMean z blur toK bit input output width scale down storage1 storage2) h
      (fun r h' => Thresholded h h' output r.1 storage1 r.2.1 storage2 r.2.2 input.width input.height
        (fun x y => bit (if down then decide (toK (f x y) ≤ toK (B x y) * scale) else decide (toK (f x y) * scale > toK (B x y)))) ∧
        input.Valid h' ∧ input.Shows h' f) := by
  rw [← localMeanR_exact]
  refine localMeanR_spec (by rw [computeIR_exact]; exact hn) hb hi ho hs1 hs2 hf hc hc1 hc2 ds d1 d2 n1 n2 n12 hblur (fun x y _ _ => ?_)
  cases down <;> rfl

end
end Boof
