import Verif.Proofs.ConvolveRun
namespace Boof
open M
variable {V S : Type} {h1 : Heap V} {g : Gray} {F : Nat → Nat → V}

/-- One step of two accumulations side by side. -/
def stepPair {α β : Type} (f : Nat → α → Option α) (k : Nat → β → Option β) (i : Nat) (p : α × β) : Option (α × β) :=
  (f i p.1).bind (fun a => (k i p.2).bind (fun b => some (a, b)))

theorem foldO_pair {α β : Type} {n : Nat} {a a' : α} {b b' : β} {f : Nat → α → Option α} {k : Nat → β → Option β}
    (ha : foldO n a f = some a') (hb : foldO n b k = some b') : foldO n (a, b) (stepPair f k) = some (a', b') := by
  induction n generalizing a' b' with
  | zero => cases ha; cases hb; rfl
  | succ n ih =>
    unfold foldO at ha hb ⊢
    obtain ⟨x, e1, e2⟩ := Option.bind_eq_some_iff.mp ha
    obtain ⟨y, e3, e4⟩ := Option.bind_eq_some_iff.mp hb
    rw [ih e1 e3, Option.bind_some]
    unfold stepPair
    simp only [e2, e4, Option.bind_some]

theorem stepPair_some {α β : Type} {f : Nat → α → Option α} {k : Nat → β → Option β} {i : Nat} {a a' : α} {b b' : β}
    (e : stepPair f k i (a, b) = some (a', b')) : f i a = some a' ∧ k i b = some b' := by
  unfold stepPair at e
  obtain ⟨x, e1, e2⟩ := Option.bind_eq_some_iff.mp e
  obtain ⟨y, e3, e4⟩ := Option.bind_eq_some_iff.mp e2
  cases e4
  exact ⟨e1, e3⟩

/-- A loop accumulating a sum and a weight. -/
theorem Computes.pair {α β : Type} {n : Nat} {s0 s : α} {w0 w : β} {body : Nat → α × β → M V (α × β)}
    {f : Nat → α → Option α} {k : Nat → β → Option β}
    (hb : ∀ i a a' b b', i < n → f i a = some a' → k i b = some b' → Computes h1 g F (body i (a, b)) (a', b'))
    (hs : Boof.foldO n s0 f = some s) (hw : Boof.foldO n w0 k = some w) :
    Computes h1 g F (loopS n (s0, w0) body) (s, w) := by
  refine Computes.foldO (step := stepPair f k) (fun i a b hi e => ?_) (foldO_pair hs hw)
  obtain ⟨a, b⟩ := a
  rename_i b'
  obtain ⟨a', b'⟩ := b'
  obtain ⟨e1, e2⟩ := stepPair_some e
  exact hb i a a' b b' hi e1 e2

theorem avgAt_some {A : Arith V S} {kw o n x : Nat} {c : Nat → S} {v : Nat → V} {r : V}
    (e : avgAt A kw o c n v x = some r) :
    ∃ t w, foldO (lastIn kw o n x - firstIn o x) A.zero
        (fun i t => A.mac t (c (firstIn o x + i)) (v (x + (firstIn o x + i) - o))) = some t ∧
      foldO (lastIn kw o n x - firstIn o x) A.zero (fun i w => A.add w (c (firstIn o x + i))) = some w ∧
      A.norm t w = some r := by
  unfold avgAt at e
  simp only [] at e
  obtain ⟨t, e1, e2⟩ := Option.bind_eq_some_iff.mp e
  obtain ⟨w, e3, e4⟩ := Option.bind_eq_some_iff.mp e2
  exact ⟨t, w, e1, e3, e4⟩

theorem foldO_congr {α : Type} {n : Nat} {s : α} {f k : Nat → α → Option α} (e : ∀ i a, i < n → f i a = k i a) :
    foldO n s f = foldO n s k := by
  induction n with
  | zero => rfl
  | succ n ih =>
    unfold foldO
    rw [ih (fun i a hi => e i a (by omega))]
    cases foldO n s k with
    | none => rfl
    | some a => exact e n a (by omega)

theorem Paints.pair {S' : Type} {m : M V (S × S')} {t : S} {w : S'} {v : V} {norm : S → S' → Option V} {k : V → M V Unit}
    {R : Nat → Nat → Prop} (hm : Computes h1 g F m (t, w)) (hn : norm t w = some v) (hk : Paints h1 g F (k v) R) :
    Paints h1 g F (do let (t, w) ← m; let v ← opt (norm t w); k v) R :=
  Paints.bind hm (Paints.bind (Computes.opt hn) hk)

variable {A : Arith V S} {k : Kernel S} {a : Gray} {kw o : Nat} {c : Nat → S} {f : Nat → Nat → V}

theorem range_eq {x n : Nat} (hk : k.Is1D kw o c) (ho : o < kw) (hx : x < n) (hn : n + kw ≤ 2147483648) :
    ConvolveNormalizedNaive.range k x n =
      (((x + firstIn o x - o : Nat) : Int), ((x + lastIn kw o n x - o : Nat) : Int)) := by
  unfold ConvolveNormalizedNaive.range firstIn lastIn
  rw [hk.width, hk.offset]
  by_cases hc : x < o
  · simp only [hc, if_true]
    rw [sub32_of_le (a := o) (by omega) (by show _ < (4294967296:Nat); omega),
      sub32_of_le (by omega) (by show _ < (4294967296:Nat); omega), toS32_of_lt (by omega),
      toU32_of_nonneg (by omega) (by unfold P32; omega)]
    by_cases h2 : ((kw - (o - x) : Nat) : Int).toNat > n
    · rw [if_pos h2, toS32_of_lt (by omega)]
      exact Prod.ext (by simp only []; omega) (by simp only []; omega)
    · rw [if_neg h2]
      exact Prod.ext (by simp only []; omega) (by simp only []; omega)
  · simp only [hc, if_false]
    rw [sub32_of_le (by omega) (by show _ < (4294967296:Nat); omega), toS32_of_lt (by omega)]
    have e1 : toU32 ((x - o : Nat) : Int) = x - o := by
      rw [toU32_of_nonneg (by omega) (by unfold P32; omega)]; omega
    rw [e1, wrap32_of_lt (by show _ < (4294967296:Nat); omega), toS32_of_lt (by omega),
      toU32_of_nonneg (by omega) (by unfold P32; omega)]
    by_cases h2 : ((x - o + kw : Nat) : Int).toNat > n
    · rw [if_pos h2, toS32_of_lt (by omega)]
      exact Prod.ext (by simp only []; omega) (by simp only []; omega)
    · rw [if_neg h2]
      exact Prod.ext (by simp only []; omega) (by simp only []; omega)

theorem Paints.setUnsafeAt {x y : Nat} {v : V} (hv : g.Valid h1) (hx : x < g.width) (hy : y < g.height)
    (hvv : v = F x y) : Paints h1 g F (g.setUnsafeAt x y v) (fun x' y' => x' = x ∧ y' = y) := by
  unfold Gray.setUnsafeAt
  rw [hv.index_eq hx hy]
  exact Paints.wr hv hx hy rfl hvv

theorem normNaive_horizontal (hv : g.Valid h1) (ew : g.width = a.width) (eh : g.height = a.height)
    (hk : k.Is1D kw o c) (ho : o < kw) (hw : a.width + kw ≤ 2147483648) (ha : Pixels h1 g F a f)
    (hF : ∀ x y, x < a.width → y < a.height → avgAt A kw o c a.width (fun i => f i y) x = some (F x y)) :
    Paints h1 g F (ConvolveNormalizedNaive.horizontal A k a g) (fun _ _ => True) := by
  unfold ConvolveNormalizedNaive.horizontal
  refine (Paints.loop2 (fun x y hx hy => ?_)).congr (fun x y _ _ => ⟨fun _ => trivial, fun _ => ⟨by omega, by omega⟩⟩)
  obtain ⟨t, w, e1, e2, e3⟩ := avgAt_some (hF x y hx hy)
  rw [range_eq hk ho hx hw]
  simp only []
  refine Paints.pair ?_ e3 (Paints.setUnsafeAt hv (by omega) (by omega) rfl)
  have hn : (((x + lastIn kw o a.width x - o : Nat) : Int) - ((x + firstIn o x - o : Nat) : Int)).toNat =
      lastIn kw o a.width x - firstIn o x := by unfold lastIn firstIn; omega
  rw [hn]
  refine Computes.pair (fun i t t' w w' hi e1 e2 => ?_) e1 e2
  have hl : lastIn kw o a.width x ≤ kw ∧ lastIn kw o a.width x ≤ a.width + o - x ∧ o - x = firstIn o x := by
    unfold lastIn firstIn; omega
  have hj : toU32 (((x + firstIn o x - o : Nat) : Int) + i) = x + (firstIn o x + i) - o := by
    rw [toU32_of_nonneg (by omega) (by unfold P32; omega)]; omega
  simp only [hj]
  have hidx : wrap32 (sub32 (x + (firstIn o x + i) - o) x + k.offset) = firstIn o x + i := by
    rw [hk.offset]; unfold wrap32 sub32 P32; omega
  rw [hidx]
  refine Computes.bind (Computes.get1D hk (by omega)) (Computes.bind (a := f (x + (firstIn o x + i) - o) y) ?_
    (Computes.bind (Computes.opt e1) (Computes.bind (Computes.opt e2) (Computes.pure _))))
  unfold Gray.unsafeAt
  rw [ha.valid.index_eq (by omega) hy]
  exact ha.read _ y _ (by omega) hy rfl

theorem normNaive_vertical {d : Nat → S} (hv : g.Valid h1) (ew : g.width = a.width) (eh : g.height = a.height)
    (hk : k.Is1D kw o c) (ho : o < kw) (hnar : ∀ i, i < kw → A.narrow (c i) = d i) (hh : a.height + kw ≤ 2147483648)
    (ha : Pixels h1 g F a f)
    (hF : ∀ x y, x < a.width → y < a.height → avgAt A kw o d a.height (fun i => f x i) y = some (F x y)) :
    Paints h1 g F (ConvolveNormalizedNaive.vertical A k a g) (fun _ _ => True) := by
  unfold ConvolveNormalizedNaive.vertical
  refine (Paints.loop2 (fun x y hx hy => ?_)).congr (fun x y _ _ => ⟨fun _ => trivial, fun _ => ⟨by omega, by omega⟩⟩)
  obtain ⟨t, w, e1, e2, e3⟩ := avgAt_some (hF x y hx hy)
  rw [range_eq hk ho hy hh]
  simp only []
  refine Paints.pair ?_ e3 (Paints.setUnsafeAt hv (by omega) (by omega) rfl)
  have hn : (((y + lastIn kw o a.height y - o : Nat) : Int) - ((y + firstIn o y - o : Nat) : Int)).toNat =
      lastIn kw o a.height y - firstIn o y := by unfold lastIn firstIn; omega
  rw [hn]
  refine Computes.pair (fun i t t' w w' hi e1 e2 => ?_) e1 e2
  have hl : lastIn kw o a.height y ≤ kw ∧ lastIn kw o a.height y ≤ a.height + o - y ∧ o - y = firstIn o y := by
    unfold lastIn firstIn; omega
  have hj : toU32 (((y + firstIn o y - o : Nat) : Int) + i) = y + (firstIn o y + i) - o := by
    rw [toU32_of_nonneg (by omega) (by unfold P32; omega)]; omega
  simp only [hj]
  have hidx : wrap32 (sub32 (y + (firstIn o y + i) - o) y + k.offset) = firstIn o y + i := by
    rw [hk.offset]; unfold wrap32 sub32 P32; omega
  rw [hidx]
  refine Computes.bind (Computes.at1D hk (by omega)) ?_
  rw [hnar _ (by omega)]
  refine Computes.bind (a := f x (y + (firstIn o y + i) - o)) ?_
    (Computes.bind (Computes.opt e1) (Computes.bind (Computes.opt e2) (Computes.pure _)))
  unfold Gray.unsafeAt
  rw [ha.valid.index_eq hx (by omega)]
  exact ha.read x _ _ hx (by omega) rfl

theorem just_span (hk : k.Is1D kw o c) (ha : Pixels h1 g F a f) {k0 k1 src x0 y : Nat} {t w : S}
    (hk1 : k1 ≤ kw) (hx : x0 + (k1 - k0) ≤ a.width) (hy : y < a.height) (hs : src = a.addr x0 y)
    (e1 : foldO (k1 - k0) A.zero (fun i t => A.mac t (c (k0 + i)) (f (x0 + i) y)) = some t)
    (e2 : foldO (k1 - k0) A.zero (fun i w => A.add w (c (k0 + i))) = some w) :
    Computes h1 g F (ConvolveNormalizedJustBorder.span A k a k0 k1 src) (t, w) := by
  unfold ConvolveNormalizedJustBorder.span
  refine Computes.pair (fun i t t' w w' hi e1 e2 => ?_) e1 e2
  refine Computes.bind (Computes.get1D hk (by omega)) (Computes.bind (Computes.opt e2) (Computes.bind (a := f (x0 + i) y) ?_
    (Computes.bind (Computes.opt e1) (Computes.pure _))))
  have : src + i = a.addr (x0 + i) y := by rw [hs]; unfold Gray.addr; omega
  rw [this, wrap32_of_lt (ha.valid.addr_lt32 (by omega) hy)]
  exact ha.read _ y _ (by omega) hy rfl

theorem just_horizontal (hv : g.Valid h1) (ew : g.width = a.width) (eh : g.height = a.height)
    (hk : k.Is1D kw o c) (ho : o < kw) (hkw : kw ≤ a.width) (ha : Pixels h1 g F a f)
    (hF : ∀ x y, x < a.width → y < a.height → x < o ∨ a.width + o < x + kw → avgAt A kw o c a.width (fun i => f i y) x = some (F x y)) :
    Paints h1 g F (ConvolveNormalizedJustBorder.horizontal A k a g) (fun x _ => x < o ∨ a.width + o < x + kw) := by
  have wl := ha.valid.widthLt
  unfold P32 at wl
  have o3 : sub32 (sub32 kw o) 1 = kw - o - 1 := by
    rw [sub32_of_le (a := kw) (by omega) (by show _ < (4294967296:Nat); omega),
      sub32_of_le (by omega) (by show _ < (4294967296:Nat); omega)]
  unfold ConvolveNormalizedJustBorder.horizontal
  rw [hk.offset, hk.width]
  simp only [o3]
  refine (Paints.loop (R := fun y x' y' => (∃ x, x < o ∧ x' = x ∧ y' = y) ∨
    ∃ x, a.width - (kw - o - 1) ≤ x ∧ x < a.width ∧ x' = x ∧ y' = y) (fun y hy => ?_)).congr (fun x' y' hx hy => ?_)
  · have r1 := hv.rowEnd_lt (y := y) (by omega)
    have r2 := ha.valid.rowEnd_lt (y := y) hy
    unfold P32 at r1 r2
    have e1 : wrap32 (g.offset + y * g.stride) = g.offset + y * g.stride := wrap32_of_lt (by show _ < (4294967296:Nat); omega)
    have e2 : wrap32 (a.offset + y * a.stride) = a.offset + y * a.stride := wrap32_of_lt (by show _ < (4294967296:Nat); omega)
    have e3 : wrap32 (a.offset + y * a.stride + o) = a.offset + y * a.stride + o :=
      wrap32_of_lt (by show _ < (4294967296:Nat); omega)
    have e4 : wrap32 (a.offset + y * a.stride + a.width) = a.offset + y * a.stride + a.width :=
      wrap32_of_lt (by show _ < (4294967296:Nat); omega)
    have e5 : wrap32 (o + (kw - o - 1)) = kw - 1 := by
      rw [wrap32_of_lt (by show _ < (4294967296:Nat); omega)]; omega
    have e6 : sub32 a.width (kw - 1) = a.width - (kw - 1) := sub32_of_le (by omega) (by show _ < (4294967296:Nat); omega)
    have e7 : wrap32 (a.offset + y * a.stride + (a.offset + y * a.stride + o - (a.offset + y * a.stride)) + (a.width - (kw - 1))) =
        a.offset + y * a.stride + (a.width - (kw - o - 1)) := by
      rw [wrap32_of_lt (by show _ < (4294967296:Nat); omega)]; omega
    have e8 : wrap32 (g.offset + y * g.stride + (a.offset + y * a.stride + o - (a.offset + y * a.stride)) +
        (a.width - (kw - 1))) = g.offset + y * g.stride + (a.width - (kw - o - 1)) := by
      rw [wrap32_of_lt (by show _ < (4294967296:Nat); omega)]; omega
    simp only [e1, e2, e3, e4, e5, e6, e7, e8]
    refine Paints.seq ((Paints.forRange (R := fun j x' y' => x' + (a.offset + y * a.stride) = j ∧ y' = y)
      (fun j j0 j1 => ?_)).congr (fun x' y' _ _ => ?_))
      ((Paints.forRange (R := fun j x' y' => x' + (a.offset + y * a.stride) = j ∧ y' = y)
      (fun j j0 j1 => ?_)).congr (fun x' y' _ _ => ?_))
    · obtain ⟨x, rfl⟩ : ∃ x, j = a.offset + y * a.stride + x := ⟨j - (a.offset + y * a.stride), by omega⟩
      have hk0 : sub32 kw (sub32 (kw - o - 1 + 1 + (a.offset + y * a.stride + x)) (a.offset + y * a.stride)) = o - x := by
        have : sub32 (kw - o - 1 + 1 + (a.offset + y * a.stride + x)) (a.offset + y * a.stride) = kw - o + x := by
          unfold sub32 P32; omega
        rw [this, sub32_of_le (by omega) (by show _ < (4294967296:Nat); omega)]; omega
      rw [hk0]
      obtain ⟨t, w, q1, q2, q3⟩ := avgAt_some (hF x y (by omega) hy (by omega))
      have hl : lastIn kw o a.width x = kw ∧ firstIn o x = o - x := by unfold lastIn firstIn; omega
      rw [hl.1, hl.2] at q1 q2
      rw [wrap32_of_lt (by show _ < (4294967296:Nat); omega)]
      refine (Paints.pair (just_span (x0 := 0) (y := y) hk ha (Nat.le_refl kw) (by omega) hy
        (by unfold Gray.addr; omega) ?_ q2) q3
        (Paints.wr hv (x := x) (y := y) (by omega) (by omega) (by unfold Gray.addr; omega) rfl)).congr
        (fun x' y' _ _ => by omega)
      rw [← q1]
      refine foldO_congr (fun i t hi => ?_)
      have : x + (o - x + i) - o = 0 + i := by omega
      rw [this]
    · constructor
      · rintro ⟨j, h, h', rfl, rfl⟩; exact ⟨x', by omega, rfl, rfl⟩
      · rintro ⟨x, h, rfl, rfl⟩; exact ⟨x' + (a.offset + y' * a.stride), by omega, by omega, rfl, rfl⟩
    · obtain ⟨x, rfl⟩ : ∃ x, j = a.offset + y * a.stride + x := ⟨j - (a.offset + y * a.stride), by omega⟩
      have h1' : sub32 (a.offset + y * a.stride + x) o = a.offset + y * a.stride + (x - o) := by
        rw [sub32_of_le (by omega) (by show _ < (4294967296:Nat); omega)]; omega
      have h2' : sub32 (a.offset + y * a.stride + a.width) (a.offset + y * a.stride + (x - o)) = a.width + o - x := by
        rw [sub32_of_le (by omega) (by show _ < (4294967296:Nat); omega)]; omega
      simp only [h1', h2']
      obtain ⟨t, w, q1, q2, q3⟩ := avgAt_some (hF x y (by omega) hy (by omega))
      have hl : lastIn kw o a.width x = a.width + o - x ∧ firstIn o x = 0 := by unfold lastIn firstIn; omega
      rw [hl.1, hl.2] at q1 q2
      rw [wrap32_of_lt (by show _ < (4294967296:Nat); omega)]
      refine (Paints.pair (just_span (x0 := x - o) (y := y) hk ha (by omega) (by omega) hy
        (by unfold Gray.addr; omega) ?_ q2) q3
        (Paints.wr hv (x := x) (y := y) (by omega) (by omega) (by unfold Gray.addr; omega) rfl)).congr
        (fun x' y' _ _ => by omega)
      rw [← q1]
      refine foldO_congr (fun i t hi => ?_)
      have : x + (0 + i) - o = x - o + i := by omega
      rw [this]
    · constructor
      · rintro ⟨j, h, h', rfl, rfl⟩; exact ⟨x', by omega, by omega, rfl, rfl⟩
      · rintro ⟨x, h, h', rfl, rfl⟩; exact ⟨x' + (a.offset + y' * a.stride), by omega, by omega, rfl, rfl⟩
  · constructor
    · rintro ⟨y, _, ⟨x, _, rfl, rfl⟩ | ⟨x, _, _, rfl, rfl⟩⟩
      · exact Or.inl (by omega)
      · exact Or.inr (by omega)
    · rintro (h | h)
      · exact ⟨y', by omega, Or.inl ⟨x', h, rfl, rfl⟩⟩
      · exact ⟨y', by omega, Or.inr ⟨x', by omega, by omega, rfl, rfl⟩⟩

theorem just_weight (hk : k.Is1D kw o c) {k0 k1 : Nat} {w : S} (hk1 : k1 ≤ kw)
    (e2 : foldO (k1 - k0) A.zero (fun i w => A.add w (c (k0 + i))) = some w) :
    Computes h1 g F (ConvolveNormalizedJustBorder.weight A k k0 k1) w := by
  unfold ConvolveNormalizedJustBorder.weight
  exact Computes.foldO (fun i w w' hi e => Computes.bind (Computes.get1D hk (by omega)) (Computes.opt e)) e2

theorem just_column (hk : k.Is1D kw o c) (ha : Pixels h1 g F a f) {k0 k1 src x y0 : Nat} {t : S}
    (hk1 : k1 ≤ kw) (hy : y0 + (k1 - k0) ≤ a.height) (hx : x < a.width) (hs : src = a.addr x y0)
    (e1 : foldO (k1 - k0) A.zero (fun i t => A.mac t (c (k0 + i)) (f x (y0 + i))) = some t) :
    Computes h1 g F (ConvolveNormalizedJustBorder.column A k a k0 k1 src) t := by
  unfold ConvolveNormalizedJustBorder.column
  refine Computes.foldO (fun i t t' hi e1 => ?_) e1
  refine Computes.bind (a := f x (y0 + i)) ?_ (Computes.bind (Computes.get1D hk (by omega)) (Computes.opt e1))
  have : src + i * a.stride = a.addr x (y0 + i) := by rw [hs]; unfold Gray.addr; rw [Nat.add_mul]; omega
  rw [this, wrap32_of_lt (ha.valid.addr_lt32 hx (by omega))]
  exact ha.read x _ _ hx (by omega) rfl

/-- Both halves of the vertical border: row `y`, coefficients `k0 .. k1-1`, first sample in row `y0`. -/
theorem just_row (hv : g.Valid h1) (ew : g.width = a.width) (eh : g.height = a.height) (hk : k.Is1D kw o c)
    (ha : Pixels h1 g F a f) {y k0 k1 y0 back : Nat} (hy : y < a.height) (hk1 : k1 ≤ kw) (hy0 : y0 + (k1 - k0) ≤ a.height)
    (hback : y = y0 + back)
    (hwe : foldO (k1 - k0) A.zero (fun i w => A.add w (c (k0 + i))) ≠ none)
    (hF : ∀ x, x < a.width → ∀ w, foldO (k1 - k0) A.zero (fun i w => A.add w (c (k0 + i))) = some w →
      ∃ t, foldO (k1 - k0) A.zero (fun i t => A.mac t (c (k0 + i)) (f x (y0 + i))) = some t ∧ A.norm t w = some (F x y)) :
    Paints h1 g F (do
      let w ← ConvolveNormalizedJustBorder.weight A k k0 k1
      M.forRange (wrap32 (a.offset + y * a.stride)) (wrap32 (wrap32 (a.offset + y * a.stride) + a.width)) (fun i => do
        let total ← ConvolveNormalizedJustBorder.column A k a k0 k1 (sub32 i (wrap32 (back * a.stride)))
        let v ← opt (A.norm total w)
        wr g.buf (wrap32 (wrap32 (g.offset + y * g.stride) + (i - wrap32 (a.offset + y * a.stride)))) v))
      (fun x' y' => x' < a.width ∧ y' = y) := by
  obtain ⟨w, ew'⟩ := Option.ne_none_iff_exists'.mp hwe
  refine Paints.bind (just_weight hk hk1 ew') ?_
  have r1 := hv.rowEnd_lt (y := y) (by omega)
  have r2 := ha.valid.rowEnd_lt (y := y) hy
  unfold P32 at r1 r2
  have e1 : wrap32 (g.offset + y * g.stride) = g.offset + y * g.stride := wrap32_of_lt (by show _ < (4294967296:Nat); omega)
  have e2 : wrap32 (a.offset + y * a.stride) = a.offset + y * a.stride := wrap32_of_lt (by show _ < (4294967296:Nat); omega)
  have e3 : wrap32 (a.offset + y * a.stride + a.width) = a.offset + y * a.stride + a.width :=
    wrap32_of_lt (by show _ < (4294967296:Nat); omega)
  have em : y * a.stride = y0 * a.stride + back * a.stride := by rw [hback, Nat.add_mul]
  have e4 : wrap32 (back * a.stride) = back * a.stride := wrap32_of_lt (by show _ < (4294967296:Nat); omega)
  simp only [e1, e2, e3, e4]
  refine (Paints.forRange (R := fun j x' y' => x' + (a.offset + y * a.stride) = j ∧ y' = y)
      (fun j j0 j1 => ?_)).congr (fun x' y' _ _ => ?_)
  · obtain ⟨x, rfl⟩ : ∃ x, j = a.offset + y * a.stride + x := ⟨j - (a.offset + y * a.stride), by omega⟩
    obtain ⟨t, q1, q2⟩ := hF x (by omega) w ew'
    rw [wrap32_of_lt (by show _ < (4294967296:Nat); omega), sub32_of_le (by omega) (by show _ < (4294967296:Nat); omega)]
    exact (Paints.bind (just_column hk ha hk1 hy0 (x := x) (by omega) (by unfold Gray.addr; omega) q1)
      (Paints.bind (Computes.opt q2)
        (Paints.wr hv (x := x) (y := y) (by omega) (by omega) (by unfold Gray.addr; omega) rfl))).congr
        (fun x' y' _ _ => by omega)
  · constructor
    · rintro ⟨j, h, h', rfl, rfl⟩; exact ⟨by omega, rfl⟩
    · rintro ⟨h, rfl⟩; exact ⟨x' + (a.offset + y' * a.stride), by omega, by omega, rfl, rfl⟩

theorem just_vertical (hv : g.Valid h1) (ew : g.width = a.width) (eh : g.height = a.height)
    (hk : k.Is1D kw o c) (ho : o < kw) (hkw : kw ≤ a.height) (ha : Pixels h1 g F a f)
    (hd : ∀ y, y < a.height → weightAt A kw o c a.height y ≠ none)
    (hF : ∀ x y, x < a.width → y < a.height → y < o ∨ a.height + o < y + kw → avgAt A kw o c a.height (fun i => f x i) y = some (F x y)) :
    Paints h1 g F (ConvolveNormalizedJustBorder.vertical A k a g) (fun _ y => y < o ∨ a.height + o < y + kw) := by
  have wl := ha.valid.heightLt
  unfold P32 at wl
  have o3 : sub32 (sub32 kw o) 1 = kw - o - 1 := by
    rw [sub32_of_le (a := kw) (by omega) (by show _ < (4294967296:Nat); omega),
      sub32_of_le (by omega) (by show _ < (4294967296:Nat); omega)]
  have o4 : sub32 a.height (kw - o - 1) = a.height - (kw - o - 1) :=
    sub32_of_le (by omega) (by show _ < (4294967296:Nat); omega)
  unfold ConvolveNormalizedJustBorder.vertical
  rw [hk.offset, hk.width]
  simp only [o3, o4]
  refine (Paints.seq (Paints.loop (R := fun y x' y' => x' < a.width ∧ y' = y) (fun y hy => ?_))
    (Paints.forRange (R := fun y x' y' => x' < a.width ∧ y' = y) (fun y hy hy' => ?_))).congr (fun x' y' hx hy => ?_)
  · have e1 : sub32 o y = o - y := sub32_of_le (by omega) (by show _ < (4294967296:Nat); omega)
    rw [e1]
    have hl : lastIn kw o a.height y = kw ∧ firstIn o y = o - y := by unfold lastIn firstIn; omega
    have hwe := hd y (by omega)
    unfold weightAt at hwe
    rw [hl.1, hl.2] at hwe
    refine just_row hv ew eh hk ha (y0 := 0) (by omega) (Nat.le_refl kw) (by omega) (by omega) hwe (fun x hx w ew' => ?_)
    obtain ⟨t, w', q1, q2, q3⟩ := avgAt_some (hF x y hx (by omega) (by omega))
    rw [hl.1, hl.2] at q1 q2
    rw [ew'] at q2
    cases q2
    refine ⟨t, ?_, q3⟩
    rw [← q1]
    refine foldO_congr (fun i t hi => ?_)
    have : y + (o - y + i) - o = 0 + i := by omega
    rw [this]
  · have e1 : sub32 y o = y - o := sub32_of_le (by omega) (by show _ < (4294967296:Nat); omega)
    have e2 : sub32 a.height (y - o) = a.height + o - y := by
      rw [sub32_of_le (by omega) (by show _ < (4294967296:Nat); omega)]; omega
    rw [e1, e2]
    have hl : lastIn kw o a.height y = a.height + o - y ∧ firstIn o y = 0 := by unfold lastIn firstIn; omega
    have hwe := hd y (by omega)
    unfold weightAt at hwe
    rw [hl.1, hl.2] at hwe
    refine just_row hv ew eh hk ha (y0 := y - o) (by omega) (by omega) (by omega) (by omega) hwe (fun x hx w ew' => ?_)
    obtain ⟨t, w', q1, q2, q3⟩ := avgAt_some (hF x y hx (by omega) (by omega))
    rw [hl.1, hl.2] at q1 q2
    rw [ew'] at q2
    cases q2
    refine ⟨t, ?_, q3⟩
    rw [← q1]
    refine foldO_congr (fun i t hi => ?_)
    have : y + (0 + i) - o = y - o + i := by omega
    rw [this]
  · constructor
    · rintro (⟨y, h, h', rfl⟩ | ⟨y, h, h', h'', rfl⟩) <;> omega
    · rintro (h | h)
      · exact Or.inl ⟨y', h, by omega, rfl⟩
      · exact Or.inr ⟨y', by omega, by omega, by omega, rfl⟩

theorem Computes.kernelSum (hk : k.Is1D kw o c) {w : S} (e : Boof.foldO kw A.zero (fun i w => A.add w (c i)) = some w) :
    Computes h1 g F (k.sum A.zero A.add) w := by
  unfold Kernel.sum
  rw [hk.size]
  refine Computes.foldO (fun i w w' hi e => Computes.bind (Computes.get1D hk hi) ?_) e
  simp only [e]
  exact Computes.pure _

/-- Inside, the average is the whole sum over the whole weight. -/
theorem avgAt_inner {n x : Nat} {v : Nat → V} {r : V} (hox : o ≤ x) (hx : x + kw ≤ n + o)
    (e : avgAt A kw o c n v x = some r) : ∃ w, foldO kw A.zero (fun i w => A.add w (c i)) = some w ∧
      (foldO kw A.zero (fun i t => A.mac t (c i) (v (x + i - o)))).bind (fun t => A.norm t w) = some r := by
  obtain ⟨t, w, e1, e2, e3⟩ := avgAt_some e
  have hl : lastIn kw o n x = kw ∧ firstIn o x = 0 := by unfold lastIn firstIn; omega
  rw [hl.1, hl.2] at e1 e2
  simp only [Nat.zero_add, Nat.sub_zero] at e1 e2
  exact ⟨w, e2, by rw [e1]; exact e3⟩

theorem weightAt_inner {n x : Nat} (hox : o ≤ x) (hx : x + kw ≤ n + o) :
    weightAt A kw o c n x = foldO kw A.zero (fun i w => A.add w (c i)) := by
  have hl : lastIn kw o n x = kw ∧ firstIn o x = 0 := by unfold lastIn firstIn; omega
  unfold weightAt
  rw [hl.1, hl.2]
  simp only [Nat.zero_add, Nat.sub_zero]

theorem inner_row_eq {x y : Nat} (hox : o ≤ x) {w : S} {r : V}
    (e : (foldO kw A.zero (fun i t => A.mac t (c i) (f (x + i - o) y))).bind (fun t => A.norm t w) = some r) :
    (rowAt A kw o c (fun x y => f x.toNat y.toNat) x y).bind (fun t => A.norm t w) = some r := by
  rw [← e]
  unfold rowAt
  congr 1
  refine foldO_congr (fun i t hi => ?_)
  have : ((x : Int) + i - o).toNat = x + i - o := by omega
  beta_reduce; rw [this, Int.toNat_natCast]

theorem inner_col_eq {x y : Nat} (hoy : o ≤ y) {w : S} {r : V}
    (e : (foldO kw A.zero (fun i t => A.mac t (c i) (f x (y + i - o)))).bind (fun t => A.norm t w) = some r) :
    (colAt A kw o c (fun x y => f x.toNat y.toNat) x y).bind (fun t => A.norm t w) = some r := by
  rw [← e]
  unfold colAt
  congr 1
  refine foldO_congr (fun i t hi => ?_)
  have : ((y : Int) + i - o).toNat = y + i - o := by omega
  beta_reduce; rw [this, Int.toNat_natCast]

/-- The whole of `ConvolveNormalized::horizontal` after the check of the shapes, with the inner part as a parameter. -/
theorem norm_horizontal (hv : g.Valid h1) (ew : g.width = a.width) (eh : g.height = a.height)
    (hk : k.Is1D kw o c) (ho : o < kw) (hw : a.width + kw ≤ 2147483648) (ha : Pixels h1 g F a f)
    (hd : ∀ x, x < a.width → weightAt A kw o c a.width x ≠ none)
    (hF : ∀ x y, x < a.width → y < a.height → avgAt A kw o c a.width (fun i => f i y) x = some (F x y))
    (inner : S → M V Unit)
    (hin : ∀ s, kw < a.width → (∀ x y, o ≤ x → x + kw ≤ a.width + o → y < a.height →
      (rowAt A kw o c (fun x y => f x.toNat y.toNat) x y).bind (fun t => A.norm t s) = some (F x y)) →
      Paints h1 g F (inner s) (fun x _ => o ≤ x ∧ x + kw ≤ a.width + o)) :
    Paints h1 g F (do
      checkSameShape2 a.width a.height g.width g.height
      if k.width ≥ a.width then ConvolveNormalizedNaive.horizontal A k a g
      else do
        let sum ← k.sum A.zero A.add
        inner sum
        ConvolveNormalizedJustBorder.horizontal A k a g) (fun _ _ => True) := by
  refine Paints.bind (a := ()) (Computes.of_const (fun h => ?_)) ?_
  · unfold checkSameShape2
    rw [if_neg (by omega)]; rfl
  by_cases hc : k.width ≥ a.width
  · rw [if_pos hc]
    exact normNaive_horizontal hv ew eh hk ho hw ha hF
  · rw [if_neg hc]
    rw [hk.width] at hc
    have hs := hd o (by omega)
    rw [weightAt_inner (Nat.le_refl o) (by omega)] at hs
    obtain ⟨s, es⟩ := Option.ne_none_iff_exists'.mp hs
    refine Paints.bind (Computes.kernelSum hk es) ?_
    refine (Paints.seq (hin s (by omega) (fun x y hox hx hy => ?_))
      (just_horizontal hv ew eh hk ho (by omega) ha (fun x y hx hy _ => hF x y hx hy))).congr (fun x y _ _ => ⟨fun _ => trivial, fun _ => by omega⟩)
    obtain ⟨w, e1, e2⟩ := avgAt_inner hox hx (hF x y (by omega) hy)
    rw [es] at e1
    cases e1
    exact inner_row_eq hox e2

theorem norm_vertical (hv : g.Valid h1) (ew : g.width = a.width) (eh : g.height = a.height)
    (hk : k.Is1D kw o c) (ho : o < kw) (hw : a.height + kw ≤ 2147483648) (ha : Pixels h1 g F a f)
    (hnar : a.height ≤ kw → ∀ i, i < kw → A.narrow (c i) = c i)
    (hd : ∀ x, x < a.height → weightAt A kw o c a.height x ≠ none)
    (hF : ∀ x y, x < a.width → y < a.height → avgAt A kw o c a.height (fun i => f x i) y = some (F x y))
    (inner : S → M V Unit)
    (hin : ∀ s, kw < a.height → (∀ x y, o ≤ y → y + kw ≤ a.height + o → x < a.width →
      (colAt A kw o c (fun x y => f x.toNat y.toNat) x y).bind (fun t => A.norm t s) = some (F x y)) →
      Paints h1 g F (inner s) (fun _ y => o ≤ y ∧ y + kw ≤ a.height + o)) :
    Paints h1 g F (do
      checkSameShape2 a.width a.height g.width g.height
      if k.width ≥ a.height then ConvolveNormalizedNaive.vertical A k a g
      else do
        let sum ← k.sum A.zero A.add
        inner sum
        ConvolveNormalizedJustBorder.vertical A k a g) (fun _ _ => True) := by
  refine Paints.bind (a := ()) (Computes.of_const (fun h => ?_)) ?_
  · unfold checkSameShape2
    rw [if_neg (by omega)]; rfl
  by_cases hc : k.width ≥ a.height
  · rw [if_pos hc]
    rw [hk.width] at hc
    exact normNaive_vertical hv ew eh hk ho (hnar hc) hw ha hF
  · rw [if_neg hc]
    rw [hk.width] at hc
    have hs := hd o (by omega)
    rw [weightAt_inner (Nat.le_refl o) (by omega)] at hs
    obtain ⟨s, es⟩ := Option.ne_none_iff_exists'.mp hs
    refine Paints.bind (Computes.kernelSum hk es) ?_
    refine (Paints.seq (hin s (by omega) (fun x y hoy hy hx => ?_))
      (just_vertical hv ew eh hk ho (by omega) ha hd (fun x y hx hy _ => hF x y hx hy))).congr (fun x y _ _ => ⟨fun _ => trivial, fun _ => by omega⟩)
    obtain ⟨w, e1, e2⟩ := avgAt_inner hoy hy (hF x y hx (by omega))
    rw [es] at e1
    cases e1
    exact inner_col_eq hoy e2

theorem Pixels.toInt (ha : Pixels h1 g F a f) :
    Pixels h1 g F a (fun x y => (fun x y : Int => f x.toNat y.toNat) x y) := by
  simpa only [Int.toNat_natCast] using ha

theorem normalized_horizontal (hv : g.Valid h1) (ew : g.width = a.width) (eh : g.height = a.height)
    (hk : k.Is1D kw o c) (ho : o < kw) (hw : a.width + kw ≤ 2147483648) (ha : Pixels h1 g F a f)
    (hd : ∀ x, x < a.width → weightAt A kw o c a.width x ≠ none)
    (hF : ∀ x y, x < a.width → y < a.height → avgAt A kw o c a.width (fun i => f i y) x = some (F x y)) :
    Paints h1 g F (ConvolveNormalized.horizontal A k a g) (fun _ _ => True) :=
  norm_horizontal hv ew eh hk ho hw ha hd hF (fun s => ConvolveInner.horizontal A (fun t => A.norm t s) k a g)
    (fun s hkw hs => inner_horizontal hv ew eh hk ho (by omega) ha.toInt hs)

theorem normalized_vertical (hv : g.Valid h1) (ew : g.width = a.width) (eh : g.height = a.height)
    (hk : k.Is1D kw o c) (ho : o < kw) (hw : a.height + kw ≤ 2147483648) (ha : Pixels h1 g F a f)
    (hnar : a.height ≤ kw → ∀ i, i < kw → A.narrow (c i) = c i)
    (hd : ∀ x, x < a.height → weightAt A kw o c a.height x ≠ none)
    (hF : ∀ x y, x < a.width → y < a.height → avgAt A kw o c a.height (fun i => f x i) y = some (F x y)) :
    Paints h1 g F (ConvolveNormalized.vertical A k a g) (fun _ _ => True) :=
  norm_vertical hv ew eh hk ho hw ha hnar hd hF (fun s => ConvolveInner.vertical A (fun t => A.norm t s) k a g)
    (fun s hkw hs => inner_vertical hv ew eh hk ho (by omega) (by omega) ha.toInt hs)

/-- Dividing by a weight of one is the plain conversion. -/
def Arith.OneLaw (A : Arith V S) : Prop := ∀ s, A.isOne s = true → ∀ t, A.norm t s = A.out t

theorem normalized_horizontalF (h1l : A.OneLaw) (hv : g.Valid h1) (ew : g.width = a.width) (eh : g.height = a.height)
    (hk : k.Is1D kw o c) (ho : o < kw) (hw : a.width + kw ≤ 2147483648) (ha : Pixels h1 g F a f)
    (hl : a.dataLength < 2147483648)
    (hd : ∀ x, x < a.width → weightAt A kw o c a.width x ≠ none)
    (hF : ∀ x y, x < a.width → y < a.height → avgAt A kw o c a.width (fun i => f i y) x = some (F x y)) :
    Paints h1 g F (ConvolveNormalized.horizontalF A k a g) (fun _ _ => True) := by
  refine norm_horizontal hv ew eh hk ho hw ha hd hF (fun s => if A.isOne s then ConvolveInner.horizontal A A.out k a g
     else ConvolveInner.horizontalF A (fun t => A.norm t s) k a g) (fun s hkw hs => ?_)
  split
  · rename_i h
    simp only [h1l s h] at hs
    exact inner_horizontal hv ew eh hk ho (by omega) ha.toInt hs
  · exact inner_horizontalF hv ew eh hk ho (by omega) ha.toInt hl hs

theorem normalized_verticalF (h1l : A.OneLaw) (hv : g.Valid h1) (ew : g.width = a.width) (eh : g.height = a.height)
    (hk : k.Is1D kw o c) (ho : o < kw) (hw : a.height + kw ≤ 2147483648) (ha : Pixels h1 g F a f)
    (hl : a.dataLength < 2147483648)
    (hnar : a.height ≤ kw → ∀ i, i < kw → A.narrow (c i) = c i)
    (hd : ∀ x, x < a.height → weightAt A kw o c a.height x ≠ none)
    (hF : ∀ x y, x < a.width → y < a.height → avgAt A kw o c a.height (fun i => f x i) y = some (F x y)) :
    Paints h1 g F (ConvolveNormalized.verticalF A k a g) (fun _ _ => True) := by
  refine norm_vertical hv ew eh hk ho hw ha hnar hd hF (fun s => if A.isOne s then ConvolveInner.vertical A A.out k a g
     else ConvolveInner.verticalF A (fun t => A.norm t s) k a g) (fun s hkw hs => ?_)
  split
  · rename_i h
    simp only [h1l s h] at hs
    exact inner_vertical hv ew eh hk ho (by omega) (by omega) ha.toInt hs
  · exact inner_verticalF hv ew eh hk ho (by omega) ha.toInt hl hs

end Boof
