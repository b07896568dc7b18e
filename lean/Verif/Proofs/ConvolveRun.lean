import Verif.Proofs.ConvolveBorder
import Verif.Proofs.Arith
import Verif.Proofs.Sum
namespace Boof
open M
variable {V S : Type}

/-- An operation which reshapes the output and paints it. -/
theorem paint_run {z : V} {h : Heap V} {input output : Gray} {w ht : Nat} {f F : Nat → Nat → V} {m : Gray → M V Unit}
    (hi : input.Valid h) (ho : output.Valid h) (ha : w * ht < P32) (hw : w < P32) (hh : ht < P32)
    (hc : output.CanBe w ht) (hs : input.Sep output w ht) (hf : input.Shows h f)
    (hm : ∀ h1 g', Reshaped h h1 output g' w ht → Pixels h1 g' F input f → Paints h1 g' F (m g') (fun _ _ => True)) :
    Spec (do let o ← output.reshape z w ht; m o; pure o) h
      (fun o h' => Produced h h' output o w ht F ∧ input.Valid h' ∧ input.Shows h' f) := by
  refine Spec.bind (reshape_spec z ho hw hh ha hc) (fun g' h1 hr => ?_)
  obtain ⟨v1, px, hd⟩ := hr.input hi hs
  have hpx : Pixels h1 g' F input f := hd.pixels v1 (fun x y hx hy => by rw [px]; exact hf x y hx hy)
  refine Spec.bind ((hm h1 g' hr hpx).done (fun _ _ _ _ => trivial)) (fun _ h2 hp => ?_)
  have hpr := hr.produced hp
  exact Spec.pure ⟨hpr, hpr.input hi hs hf⟩

/-- The same outcome for two ways of painting. -/
theorem paint_same {z : V} {h : Heap V} {output : Gray} {w ht : Nat} {F : Nat → Nat → V} {m m' : Gray → M V Unit}
    (ho : output.Valid h) (ha : w * ht < P32) (hw : w < P32) (hh : ht < P32) (hc : output.CanBe w ht)
    (hm : ∀ h1 g', Reshaped h h1 output g' w ht →
      Paints h1 g' F (m g') (fun _ _ => True) ∧ Paints h1 g' F (m' g') (fun _ _ => True)) :
    ∃ o h', (do let o ← output.reshape z w ht; m o; pure o : M V Gray) h = .ok o h' ∧
      (do let o ← output.reshape z w ht; m' o; pure o : M V Gray) h = .ok o h' := by
  obtain ⟨g', h1, e, hr⟩ := reshape_spec z ho hw hh ha hc
  obtain ⟨p1, p2⟩ := hm h1 g' hr
  obtain ⟨_, h2, e2, q2⟩ := p1.done (fun _ _ _ _ => trivial)
  obtain ⟨_, h3, e3, q3⟩ := p2.done (fun _ _ _ _ => trivial)
  have := q2.unique q3
  subst this
  refine ⟨g', h2, ?_, ?_⟩
  · rw [M.bind_ok e, M.bind_ok e2]; rfl
  · rw [M.bind_ok e, M.bind_ok e3]; rfl

theorem Border.adjust_const (b : Border V) (x : Int) (n : Nat) :
    (∃ r, ∀ h : Heap V, b.adjust x n h = .ok r h) ∨ ∀ h : Heap V, b.adjust x n h = .ub := by
  unfold Border.adjust
  cases b with
  | value c => exact Or.inl ⟨_, fun _ => rfl⟩
  | extend =>
    simp only []
    split
    · exact Or.inl ⟨_, fun _ => rfl⟩
    · split <;> exact Or.inl ⟨_, fun _ => rfl⟩
  | reflect =>
    simp only []
    split
    · unfold IntTy.arith
      split
      · split
        · exact Or.inl ⟨_, fun _ => rfl⟩
        · exact Or.inr (fun _ => rfl)
      · exact Or.inl ⟨_, fun _ => rfl⟩
    · split <;> exact Or.inl ⟨_, fun _ => rfl⟩
  | wrap =>
    simp only []
    split
    · exact Or.inl ⟨_, fun _ => rfl⟩
    · split <;> exact Or.inl ⟨_, fun _ => rfl⟩

/-- Reading through a border only looks at the image's array. -/
theorem Border.get_frame {h h2 : Heap V} {b : Border V} {a : Gray} {x y : Int} {v : V}
    (hc : ∀ i, h2.cell a.buf i = h.cell a.buf i) (e : b.get a x y h = .ok v h) : b.get a x y h2 = .ok v h2 := by
  have hrd : ∀ i (v : V), rd a.buf i h = .ok v h → rd a.buf i h2 = .ok v h2 := by
    intro i v e
    unfold M.rd at e ⊢
    rw [hc]
    split at e
    · cases e; rfl
    · cases e
  have hadj : ∀ x n (r : Int) (h' : Heap V), b.adjust x n h = .ok r h' → h' = h ∧ b.adjust x n h2 = .ok r h2 := by
    intro x n r h' e
    rcases Border.adjust_const (V := V) b x n with ⟨r', hc⟩ | hc
    · rw [hc] at e
      injection e with e1 e2
      subst e1 e2
      exact ⟨rfl, hc h2⟩
    · rw [hc] at e; cases e
  unfold Border.get at e ⊢
  split at e
  · rename_i c
    rw [if_pos c]
    unfold Gray.at' at e ⊢
    split at e
    · cases e
    · rename_i c; rw [if_neg c]; exact hrd _ _ e
  · rename_i c
    rw [if_neg c]
    by_cases hb : ∃ c, b = .value c
    · obtain ⟨c, rfl⟩ := hb
      cases e; rfl
    · have hout : b.outsideGet a x y = (do
          let x ← b.adjust x a.width
          let y ← b.adjust y a.height
          a.unsafeAt (toU32 x) (toU32 y)) := by
        cases b with
        | value v => exact absurd ⟨v, rfl⟩ hb
        | _ => rfl
      rw [hout] at e ⊢
      rw [M.bind_run] at e
      split at e
      · rename_i x' h' ex
        obtain ⟨rfl, ex2⟩ := hadj _ _ _ _ ex
        rw [M.bind_ok ex2]
        rw [M.bind_run] at e
        split at e
        · rename_i y' h' ey
          obtain ⟨rfl, ey2⟩ := hadj _ _ _ _ ey
          rw [M.bind_ok ey2]
          exact hrd _ _ e
        all_goals cases e
      all_goals cases e

/-- With different arrays, whatever the border reads before the operation it also reads during it. -/
theorem view_of_reads {h h1 : Heap V} {b : Border V} {input output g' : Gray} {w ht : Nat} {F : Nat → Nat → V}
    {p : Int → Int → V} {x0 x1 y0 y1 : Int} (hi : input.Valid h) (hr : Reshaped h h1 output g' w ht)
    (hne : input.buf ≠ output.buf)
    (hp : ∀ x y, x0 ≤ x → x < x1 → y0 ≤ y → y < y1 → b.get input x y h = .ok (p x y) h) :
    View h1 g' F b input p x0 x1 y0 y1 := by
  intro x y _ _ a1 a2 a3 a4 P h2 hpt
  refine Border.get_frame (fun i => ?_) (hp x y a1 a2 a3 a4)
  have hlt := hi.lt_next
  rw [hpt.frame _ _ (fun x y _ _ e => ?_), hr.frame _ _ hne hlt]
  rcases hr.buf with ⟨e', _⟩ | ⟨e', _⟩
  · exact hne (e.1.trans e')
  · rw [e'] at e; omega

/-! ### Exact sums -/

theorem lo_le_neg_hi {t : IntTy} (ht : t.signed = true) : t.lo ≤ -t.hi := by
  unfold IntTy.lo IntTy.hi
  rw [if_pos ht, if_pos ht]
  omega

theorem signedType_signed (t : IntTy) : t.signedType.signed = true := by
  unfold IntTy.signedType; split <;> rfl

/-- An integer sum whose terms are small enough is computed without overflow. -/
theorem foldO_mac {t r : IntTy} {n : Nat} {s0 : Int} {c v : Nat → Int}
    (hb : |s0| + sumF n (fun k => |c k * v k|) ≤ t.signedType.hi) :
    foldO n s0 (fun k s => (intArith t r).mac s (c k) (v k)) = some (s0 + sumF n (fun k => c k * v k)) ∧
      |s0 + sumF n (fun k => c k * v k)| ≤ |s0| + sumF n (fun k => |c k * v k|) := by
  induction n with
  | zero => exact ⟨by simp [foldO, sumF], by simp [sumF]⟩
  | succ n ih =>
    have hs : sumF (n+1) (fun k => |c k * v k|) = sumF n (fun k => |c k * v k|) + |c n * v n| := rfl
    have hs' : sumF (n+1) (fun k => c k * v k) = sumF n (fun k => c k * v k) + c n * v n := rfl
    have h0 := abs_nonneg (c n * v n)
    rw [hs] at hb
    obtain ⟨e, e'⟩ := ih (by omega)
    have h1 := abs_nonneg (s0 + sumF n (fun k => c k * v k))
    have e2 := abs_add_le (s0 + sumF n (fun k => c k * v k)) (c n * v n)
    have lo := lo_le_neg_hi (signedType_signed t)
    rw [hs, hs']
    refine ⟨?_, by rw [← add_assoc]; omega⟩
    unfold foldO
    rw [e, Option.bind_some]
    show (if _ then _ else _) = _
    have a1 := abs_le.mp (show |c n * v n| ≤ t.signedType.hi by omega)
    have a2 := abs_le.mp (show |s0 + sumF n (fun k => c k * v k) + c n * v n| ≤ t.signedType.hi by omega)
    rw [if_pos ⟨⟨by omega, by omega⟩, ⟨by omega, by omega⟩⟩, add_assoc]

end Boof
