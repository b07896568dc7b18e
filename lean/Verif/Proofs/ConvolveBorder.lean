import Verif.Proofs.ConvolveInner
namespace Boof
open M
variable {V S : Type} {h1 : Heap V} {g : Gray} {F : Nat → Nat → V}
variable {A : Arith V S} {k : Kernel S} {b : Border V} {a : Gray} {kw o : Nat} {p : Int → Int → V}

theorem offsets {kw o : Nat} (ho : o < kw) (hkw : kw < 2147483648) :
    toS32 o = (o : Int) ∧ toU32 (o : Int) = o ∧ sub32 (sub32 kw o) 1 = kw - o - 1 ∧
      toS32 (kw - o - 1) = ((kw - o - 1 : Nat) : Int) ∧ toU32 ((kw - o - 1 : Nat) : Int) = kw - o - 1 := by
  refine ⟨toS32_of_lt (by omega), ?_, ?_, toS32_of_lt (by omega), ?_⟩
  · rw [toU32_of_nonneg (by omega) (by unfold P32; omega)]; omega
  · rw [sub32_of_le (a := kw) (by omega) (by show _ < (4294967296:Nat); omega),
      sub32_of_le (by omega) (by show _ < (4294967296:Nat); omega)]
  · rw [toU32_of_nonneg (by omega) (by unfold P32; omega)]; omega

theorem border_horizontal {c : Nat → S} (hv : g.Valid h1) (ew : g.width = a.width) (eh : g.height = a.height)
    (hk : k.Is1D kw o c) (ho : o < kw) (hkw : kw ≤ a.width) (hw : a.width + kw ≤ 2147483648)
    (hh : a.height ≤ 2147483648) (hp : View h1 g F b a p (-o) (a.width + kw - 1 - o) 0 a.height)
    (hF : ∀ x y, x < a.width → y < a.height → (rowAt A kw o c p x y).bind A.out = some (F x y)) :
    Paints h1 g F (ConvolveBorder.horizontal A k b a g) (fun x _ => x < o ∨ a.width + o < x + kw) := by
  obtain ⟨o1, o2, o3, o4, o5⟩ := offsets ho (by omega)
  unfold ConvolveBorder.horizontal
  rw [hk.offset, hk.width]
  simp only [o1, o2, o3, o4, o5, Int.toNat_natCast]
  refine (Paints.loop (R := fun y x' y' => (∃ x, x < o ∧ x' = x ∧ y' = y) ∨
    ∃ x, g.width - (kw - o - 1) ≤ x ∧ x < g.width ∧ x' = x ∧ y' = y) (fun y hy => ?_)).congr (fun x' y' hx hy => ?_)
  · have hs : ∀ x (x0 : Int) s, x < a.width → x0 = (x : Int) - o → rowAt A kw o c p x y = some s →
        Computes h1 g F (ConvolveBorder.rowSum A k b a x0 y) s := by
      intro x x0 s hx e0 hs
      subst e0
      unfold ConvolveBorder.rowSum
      rw [hk.width]
      refine Computes.foldO (fun i s s' hi e => ?_) hs
      refine Computes.bind (a := p ((x : Int) + i - o) y) ?_ (Computes.bind (Computes.get1D hk hi) (Computes.opt e))
      rw [toS32_of_lt (by omega)]
      refine (hp _ _ ?_ ?_ ?_ ?_ ?_ ?_).congr (congr_p (by omega) rfl) <;> omega
    have r1 := hv.rowEnd_lt (y := y) hy
    have r1' := r1
    unfold P32 at r1'
    refine Paints.seq (Paints.loop (fun x hx => ?_)) ?_
    · rw [wrap32_of_lt (by omega)]
      exact Paints.finish (hF x y (by omega) (by omega)) (fun s e => hs x _ s (by omega) rfl e)
        (Paints.wr hv (by omega) (by omega) (by unfold Gray.addr; omega) rfl)
    · have e1 : sub32 g.width (kw - o - 1) = g.width - (kw - o - 1) :=
        sub32_of_le (by omega) (by show _ < (4294967296:Nat); omega)
      rw [e1]
      refine Paints.forRange (fun x x0 x1 => ?_)
      rw [wrap32_of_lt (by omega), sub32_of_le (by omega) (by omega), toS32_of_lt (by omega)]
      exact Paints.finish (hF x y (by omega) (by omega)) (fun s e => hs x _ s (by omega) rfl e)
        (Paints.wr hv (by omega) (by omega) (by unfold Gray.addr; omega) rfl)
  · constructor
    · rintro ⟨y, _, ⟨x, _, rfl, rfl⟩ | ⟨x, _, _, rfl, rfl⟩⟩
      · exact Or.inl (by omega)
      · exact Or.inr (by omega)
    · rintro (h | h)
      · exact ⟨y', hy, Or.inl ⟨x', h, rfl, rfl⟩⟩
      · exact ⟨y', hy, Or.inr ⟨x', by omega, by omega, rfl, rfl⟩⟩

theorem border_vertical {c : Nat → S} (hv : g.Valid h1) (ew : g.width = a.width) (eh : g.height = a.height)
    (hk : k.Is1D kw o c) (ho : o < kw) (hkw : kw ≤ a.height) (hh : a.height + kw ≤ 2147483648)
    (hw : a.width ≤ 2147483648) (hp : View h1 g F b a p 0 a.width (-o) (a.height + kw - 1 - o))
    (hF : ∀ x y, x < a.width → y < a.height → (colAt A kw o c p x y).bind A.out = some (F x y)) :
    Paints h1 g F (ConvolveBorder.vertical A k b a g) (fun _ y => y < o ∨ a.height + o < y + kw) := by
  obtain ⟨o1, o2, o3, o4, o5⟩ := offsets ho (by omega)
  unfold ConvolveBorder.vertical
  rw [hk.offset, hk.width]
  simp only [o3]
  refine (Paints.loop (R := fun x x' y' => (∃ y, y < o ∧ x' = x ∧ y' = y) ∨
    ∃ y, g.height - (kw - o - 1) ≤ y ∧ y < g.height ∧ x' = x ∧ y' = y) (fun x hx => ?_)).congr (fun x' y' hx hy => ?_)
  · have hs : ∀ y s, y < a.height → colAt A kw o c p x y = some s →
        Computes h1 g F (ConvolveBorder.columnSum A k b a x y) s := by
      intro y s hy hs
      unfold ConvolveBorder.columnSum
      rw [hk.width, hk.offset]
      refine Computes.foldO (fun i s s' hi e => ?_) hs
      refine Computes.bind (a := p x ((y : Int) + i - o)) ?_ (Computes.bind (Computes.get1D hk hi) (Computes.opt e))
      rw [toS32_of_lt (by omega), toS32_add_sub (by omega) (by omega) (by omega)]
      refine hp _ _ ?_ ?_ ?_ ?_ ?_ ?_ <;> omega
    have ha : ∀ y, y < g.height → g.addr x y < P32 := fun y hy => hv.addr_lt32 hx hy
    unfold Gray.addr at ha
    refine Paints.seq (Paints.loop (fun y hy => ?_)) ?_
    · have e := ha y (by omega)
      rw [wrap32_of_lt (n := g.offset + x) (by omega), wrap32_of_lt (by omega)]
      exact Paints.finish (hF x y (by omega) (by omega)) (fun s e => hs y s (by omega) e)
        (Paints.wr hv (by omega) (by omega) (by unfold Gray.addr; omega) rfl)
    · have e1 : sub32 g.height (kw - o - 1) = g.height - (kw - o - 1) :=
        sub32_of_le (by omega) (by show _ < (4294967296:Nat); omega)
      rw [e1]
      refine Paints.forRange (fun y y0 y1 => ?_)
      have e := ha y (by omega)
      have e' := ha (g.height - (kw - o - 1)) (by omega)
      have e2 : (g.height - (kw - o - 1)) * g.stride + (y - (g.height - (kw - o - 1))) * g.stride = y * g.stride := by
        rw [← Nat.add_mul, Nat.add_sub_cancel' y0]
      rw [wrap32_of_lt (n := g.offset + (g.height - (kw - o - 1)) * g.stride + x) (by omega), wrap32_of_lt (by omega)]
      exact Paints.finish (hF x y (by omega) (by omega)) (fun s e => hs y s (by omega) e)
        (Paints.wr hv (by omega) (by omega) (by unfold Gray.addr; omega) rfl)
  · constructor
    · rintro ⟨y, _, ⟨x, _, rfl, rfl⟩ | ⟨x, _, _, rfl, rfl⟩⟩
      · exact Or.inl (by omega)
      · exact Or.inr (by omega)
    · rintro (h | h)
      · exact ⟨x', hx, Or.inl ⟨y', h, rfl, rfl⟩⟩
      · exact ⟨x', hx, Or.inr ⟨y', by omega, by omega, rfl, rfl⟩⟩

theorem border_convolve {c : Nat → Nat → S} (hv : g.Valid h1) (ew : g.width = a.width) (eh : g.height = a.height)
    (hk : k.Is2D kw o c) (ho : o < kw) (hkw : kw ≤ a.width) (hkh : kw ≤ a.height)
    (hh : a.height + kw ≤ 2147483648) (hw : a.width + kw ≤ 2147483648)
    (hp : View h1 g F b a p (-o) (a.width + kw - 1 - o) (-o) (a.height + kw - 1 - o))
    (hF : ∀ x y, x < a.width → y < a.height → (boxAt A kw o c p x y).bind A.out = some (F x y)) :
    Paints h1 g F (ConvolveBorder.convolve A k b a g)
      (fun x y => (x < o ∨ a.width + o < x + kw) ∨ (y < o ∨ a.height + o < y + kw)) := by
  obtain ⟨o1, o2, o3, o4, o5⟩ := offsets ho (by omega)
  have hs : ∀ x y s, x < a.width → y < a.height → boxAt A kw o c p x y = some s →
      Computes h1 g F (ConvolveBorder.boxSum A k b a o ((kw - o - 1 : Nat) : Int) x y) s := by
    intro x y s hx hy hs
    unfold ConvolveBorder.boxSum
    have e : (((kw - o - 1 : Nat) : Int) + (o : Int) + 1).toNat = kw := by omega
    simp only [e]
    refine Computes.foldO (fun j s s' hj e => ?_) hs
    refine Computes.foldO (fun i s s' hi e => ?_) e
    refine Computes.bind (a := p ((x:Int) + i - o) ((y:Int) + j - o)) ?_
      (Computes.bind (Computes.get2D hk hi hj rfl) (Computes.opt e))
    rw [toS32_of_lt (by omega), toS32_of_lt (by omega)]
    refine (hp _ _ ?_ ?_ ?_ ?_ ?_ ?_).congr (congr_p (by omega) (by omega)) <;> omega
  unfold ConvolveBorder.convolve
  rw [hk.offset, hk.width]
  simp only [o1, o2, o3, o4, o5, Int.toNat_natCast]
  have e1 : sub32 g.width (kw - o - 1) = g.width - (kw - o - 1) :=
    sub32_of_le (by omega) (by show _ < (4294967296:Nat); omega)
  have e2 : sub32 g.height (kw - o - 1) = g.height - (kw - o - 1) :=
    sub32_of_le (by omega) (by show _ < (4294967296:Nat); omega)
  simp only [e1, e2]
  refine (Paints.seq
    (Paints.loop (R := fun y x' y' => (∃ x, x < o ∧ x' = x ∧ y' = y) ∨
      ∃ x, g.width - (kw - o - 1) ≤ x ∧ x < g.width ∧ x' = x ∧ y' = y) (fun y hy => ?_))
    (Paints.forRange (R := fun x x' y' => (∃ y, y < o ∧ x' = x ∧ y' = y) ∨
      ∃ y, g.height - (kw - o - 1) ≤ y ∧ y < g.height ∧ x' = x ∧ y' = y) (fun x x0 x1 => ?_))).congr
    (fun x' y' hx hy => ?_)
  · have r1 := hv.rowEnd_lt (y := y) hy
    refine Paints.seq (Paints.loop (fun x hx => ?_)) (Paints.forRange (fun x x0 x1 => ?_))
    · rw [wrap32_of_lt (n := g.offset + y * g.stride) (by omega), wrap32_of_lt (by omega)]
      exact Paints.finish (hF x y (by omega) (by omega)) (fun s e => hs x y s (by omega) (by omega) e)
        (Paints.wr hv (by omega) (by omega) (by unfold Gray.addr; omega) rfl)
    · rw [wrap32_of_lt (n := g.offset + y * g.stride + g.width) (by omega), sub32_of_le (by omega) (by omega),
        wrap32_of_lt (by omega)]
      exact Paints.finish (hF x y (by omega) (by omega)) (fun s e => hs x y s (by omega) (by omega) e)
        (Paints.wr hv (by omega) (by omega) (by unfold Gray.addr; omega) rfl)
  · have ha : ∀ y, y < g.height → g.addr x y < P32 := fun y hy => hv.addr_lt32 (by omega) hy
    unfold Gray.addr at ha
    refine Paints.seq (Paints.loop (fun y hy => ?_)) (Paints.forRange (fun y y0 y1 => ?_))
    · have e := ha y (by omega)
      rw [wrap32_of_lt (n := g.offset + x) (by omega), wrap32_of_lt (by omega)]
      exact Paints.finish (hF x y (by omega) (by omega)) (fun s e => hs x y s (by omega) (by omega) e)
        (Paints.wr hv (by omega) (by omega) (by unfold Gray.addr; omega) rfl)
    · have e := ha y (by omega)
      have e' := ha (g.height - (kw - o - 1)) (by omega)
      have e2 : (g.height - (kw - o - 1)) * g.stride + (y - (g.height - (kw - o - 1))) * g.stride = y * g.stride := by
        rw [← Nat.add_mul, Nat.add_sub_cancel' y0]
      rw [wrap32_of_lt (n := g.offset + (g.height - (kw - o - 1)) * g.stride + x) (by omega), wrap32_of_lt (by omega)]
      exact Paints.finish (hF x y (by omega) (by omega)) (fun s e => hs x y s (by omega) (by omega) e)
        (Paints.wr hv (by omega) (by omega) (by unfold Gray.addr; omega) rfl)
  · constructor
    · rintro (⟨y, _, ⟨x, _, rfl, rfl⟩ | ⟨x, _, _, rfl, rfl⟩⟩ | ⟨x, _, _, ⟨y, _, rfl, rfl⟩ | ⟨y, _, _, rfl, rfl⟩⟩)
      · exact Or.inl (Or.inl (by omega))
      · exact Or.inl (Or.inr (by omega))
      · exact Or.inr (Or.inl (by omega))
      · exact Or.inr (Or.inr (by omega))
    · intro h
      by_cases c1 : x' < o
      · exact Or.inl ⟨y', hy, Or.inl ⟨x', c1, rfl, rfl⟩⟩
      · by_cases c2 : a.width + o < x' + kw
        · exact Or.inl ⟨y', hy, Or.inr ⟨x', by omega, by omega, rfl, rfl⟩⟩
        · refine Or.inr ⟨x', by omega, by omega, ?_⟩
          rcases h with (h | h) | h | h
          · omega
          · omega
          · exact Or.inl ⟨y', h, rfl, rfl⟩
          · exact Or.inr ⟨y', by omega, by omega, rfl, rfl⟩

/-- The body of `ConvolveImage::horizontal` after reshaping the output. -/
theorem image_horizontal {c : Nat → S} (hv : g.Valid h1) (hva : a.Valid h1) (ew : g.width = a.width)
    (eh : g.height = a.height)
    (hk : k.Is1D kw o c) (ho : o < kw) (hw : a.width + kw ≤ 2147483648) (hh : a.height ≤ 2147483648)
    (hp : View h1 g F b a p (-o) (a.width + kw - 1 - o) 0 a.height)
    (hF : ∀ x y, x < a.width → y < a.height → (rowAt A kw o c p x y).bind A.out = some (F x y)) :
    Paints h1 g F (if k.width ≥ g.width then ConvolveNaive.horizontal A A.out k b a g
      else do ConvolveInner.horizontal A A.out k a g; ConvolveBorder.horizontal A k b a g) (fun _ _ => True) := by
  by_cases e : k.width ≥ g.width
  · rw [if_pos e]; exact naive_horizontal hv ew eh hk ho hw hh hp hF
  · rw [if_neg e]
    rw [hk.width] at e
    refine (Paints.seq (inner_horizontal hv ew eh hk ho (by omega)
      (hp.pixels hv hva (by omega) hh (by omega) (by omega) (by omega) (by omega))
      (fun x y _ _ hy => hF x y (by omega) hy))
      (border_horizontal hv ew eh hk ho (by omega) hw hh hp hF)).congr
      (fun x y hx hy => ⟨fun _ => trivial, fun _ => ?_⟩)
    omega

theorem image_vertical {c : Nat → S} (hv : g.Valid h1) (hva : a.Valid h1) (ew : g.width = a.width)
    (eh : g.height = a.height)
    (hk : k.Is1D kw o c) (ho : o < kw) (hh : a.height + kw ≤ 2147483648) (hw : a.width ≤ 2147483648)
    (hp : View h1 g F b a p 0 a.width (-o) (a.height + kw - 1 - o))
    (hF : ∀ x y, x < a.width → y < a.height → (colAt A kw o c p x y).bind A.out = some (F x y)) :
    Paints h1 g F (if k.width ≥ g.height then ConvolveNaive.vertical A A.out k b a g
      else do ConvolveInner.vertical A A.out k a g; ConvolveBorder.vertical A k b a g) (fun _ _ => True) := by
  by_cases e : k.width ≥ g.height
  · rw [if_pos e]; exact naive_vertical hv ew eh hk ho hh hw hp hF
  · rw [if_neg e]
    rw [hk.width] at e
    refine (Paints.seq (inner_vertical hv ew eh hk ho (by omega) (by omega)
      (hp.pixels hv hva hw (by omega) (by omega) (by omega) (by omega) (by omega))
      (fun x y _ _ hx => hF x y hx (by omega)))
      (border_vertical hv ew eh hk ho (by omega) hh hw hp hF)).congr
      (fun x y hx hy => ⟨fun _ => trivial, fun _ => ?_⟩)
    omega

theorem image_convolve {c : Nat → Nat → S} (hv : g.Valid h1) (hva : a.Valid h1) (ew : g.width = a.width)
    (eh : g.height = a.height)
    (hk : k.Is2D kw o c) (ho : o < kw) (hkw : kw * kw < P32) (hh : a.height + kw ≤ 2147483648)
    (hw : a.width + kw ≤ 2147483648)
    (hp : View h1 g F b a p (-o) (a.width + kw - 1 - o) (-o) (a.height + kw - 1 - o))
    (hF : ∀ x y, x < a.width → y < a.height → (boxAt A kw o c p x y).bind A.out = some (F x y)) :
    Paints h1 g F (if k.width ≥ g.width ∨ k.width ≥ g.height then ConvolveNaive.convolve A A.out k b a g
      else do ConvolveInner.convolve A A.out k a g; ConvolveBorder.convolve A k b a g) (fun _ _ => True) := by
  by_cases e : k.width ≥ g.width ∨ k.width ≥ g.height
  · rw [if_pos e]; exact naive_convolve hv ew eh hk ho hkw hh hw hp hF
  · rw [if_neg e]
    rw [hk.width] at e
    refine (Paints.seq (inner_convolve hv ew eh hk ho (by omega) (by omega)
      (hp.pixels hv hva (by omega) (by omega) (by omega) (by omega) (by omega) (by omega))
      (fun x y _ _ _ _ => hF x y (by omega) (by omega)))
      (border_convolve hv ew eh hk ho (by omega) (by omega) hh hw hp hF)).congr
      (fun x y hx hy => ⟨fun _ => trivial, fun _ => ?_⟩)
    omega

end Boof
