import Verif.Model.Blocks
import Verif.Spec.Blocks
import Verif.Cpp.Logic
import Verif.Proofs.Paint
import Verif.Proofs.Interleaved
import Mathlib.Tactic.Ring
namespace Boof
variable {V α β γ : Type}

theorem M.bind_assoc' (m : M V α) (f : α → M V β) (g : β → M V γ) :
    (m >>= f) >>= g = m >>= fun a => f a >>= g := by
  funext h
  simp only [M.bind_run]
  cases m h <;> rfl

theorem M.pure_bind' (a : α) (f : α → M V β) : (pure a >>= f : M V β) = f a := rfl

theorem M.bind_pure' (m : M V α) : (m >>= fun a => pure a) = m := by
  funext h
  simp only [M.bind_run]
  cases m h <;> rfl

theorem M.bind_unit (m : M V Unit) : (m >>= fun _ => pure ()) = m := M.bind_pure' m

theorem M.loop_succ (n : Nat) (body : Nat → M V Unit) : M.loop (n+1) body = (M.loop n body >>= fun _ => body n) := rfl

/-- A loop which carries a counter. -/
theorem M.loopS_counter {n : Nat} {body : Nat → β → M V Unit} {next : β → β} {g : Nat → β}
    (hg : ∀ i, i < n → next (g i) = g (i+1)) :
    M.loopS n (g 0) (fun i s => body i s >>= fun _ => pure (next s)) =
      (M.loop n (fun i => body i (g i)) >>= fun _ => pure (g n)) := by
  induction n with
  | zero => rfl
  | succ n ih =>
    have ih := ih (fun i hi => hg i (by omega))
    rw [M.loop_succ]
    show (M.loopS n (g 0) _ >>= fun s => body n s >>= fun _ => pure (next s)) = _
    rw [ih, M.bind_assoc', M.bind_assoc']
    simp only [M.pure_bind']
    rw [hg n (by omega)]

namespace Grid

theorem count_pos {n req : Nat} (h1 : 1 ≤ req) (h2 : req ≤ n) : 1 ≤ count n req :=
  Nat.div_pos h2 h1

theorem le_size {n req : Nat} (h1 : 1 ≤ req) (h2 : req ≤ n) : req ≤ size n req := by
  unfold size
  rw [Nat.le_div_iff_mul_le (count_pos h1 h2)]
  unfold count
  exact Nat.mul_div_le n req

theorem count_mul_size_le (n req : Nat) : count n req * size n req ≤ n := by
  unfold size; exact Nat.mul_div_le n _

theorem div_size {n req : Nat} (h1 : 1 ≤ req) (h2 : req ≤ n) : n / size n req = count n req := by
  have h3 := le_size h1 h2
  apply Nat.le_antisymm
  · unfold count; exact Nat.div_le_div_left h3 (by omega)
  · rw [Nat.le_div_iff_mul_le (by omega)]; exact count_mul_size_le n req

theorem n_eq {n req : Nat} (h1 : 1 ≤ req) (h2 : req ≤ n) : n = count n req * size n req + n % size n req := by
  have := Nat.div_add_mod n (size n req)
  rw [div_size h1 h2] at this
  rw [Nat.mul_comm]; omega

theorem lo_le {n req b : Nat} (h1 : 1 ≤ req) (h2 : req ≤ n) (hb : b < count n req) :
    lo n req b + size n req ≤ hi n req b ∧ hi n req b ≤ n := by
  unfold lo hi
  have h3 := n_eq h1 h2
  have h4 : (b + 1) * size n req ≤ count n req * size n req := Nat.mul_le_mul_right _ hb
  have h5 : (b + 1) * size n req = b * size n req + size n req := Nat.succ_mul _ _
  split
  · omega
  · omega

theorem hi_eq {n req b : Nat} (hb : b + 1 < count n req) : hi n req b = lo n req (b+1) := by
  unfold hi lo; rw [if_neg (by omega)]

theorem hi_last {n req : Nat} (h1 : 1 ≤ req) (h2 : req ≤ n) : hi n req (count n req - 1) = n := by
  unfold hi; rw [if_pos]; have := count_pos h1 h2; omega

theorem has_blockOf {n req x : Nat} (h1 : 1 ≤ req) (h2 : req ≤ n) (hx : x < n) :
    blockOf n req x < count n req ∧ Has n req (blockOf n req x) x := by
  have hc := count_pos h1 h2
  have hs := le_size h1 h2
  have hn := n_eq h1 h2
  have hm := Nat.div_add_mod x (size n req)
  have hml := Nat.mod_lt x (show 0 < size n req by omega)
  rw [Nat.mul_comm] at hm
  unfold blockOf Has
  by_cases hlt : x / size n req + 1 < count n req
  · rw [Nat.min_eq_left (by omega)]
    refine ⟨by omega, ?_, ?_⟩
    · unfold lo; omega
    · unfold hi; rw [if_neg (by omega), Nat.succ_mul]; omega
  · rw [Nat.min_eq_right (by omega)]
    refine ⟨by omega, ?_, ?_⟩
    · unfold lo
      have := Nat.mul_le_mul_right (size n req) (show count n req - 1 ≤ x / size n req by omega)
      omega
    · rw [hi_last h1 h2]; exact hx

theorem has_unique {n req x b b' : Nat} (h1 : 1 ≤ req) (h2 : req ≤ n) (hb : b < count n req) (hb' : b' < count n req)
    (hx : Has n req b x) (hx' : Has n req b' x) : b = b' := by
  have key : ∀ {b b'}, b < count n req → b' < count n req → Has n req b x → Has n req b' x → ¬b < b' := by
    intro b b' hb hb' hx hx' hlt
    have e := hi_eq (n := n) (req := req) (b := b) (by omega)
    have : lo n req (b+1) ≤ lo n req b' := Nat.mul_le_mul_right _ hlt
    unfold Has at hx hx'
    omega
  have a := key hb hb' hx hx'
  have c := key hb' hb hx' hx
  omega

theorem has_iff {n req x b : Nat} (h1 : 1 ≤ req) (h2 : req ≤ n) (hx : x < n) (hb : b < count n req) :
    Has n req b x ↔ b = blockOf n req x := by
  obtain ⟨p, q⟩ := has_blockOf h1 h2 hx
  constructor
  · intro h; exact has_unique h1 h2 hb p h q
  · rintro rfl; exact q

end Grid

/-- The inner extent of an axis and the number of steps over it. -/
theorem inner_cases {n req : Nat} (h1 : 1 ≤ req) (h2 : req ≤ n) (hn : n < P32) :
    let s := Grid.size n req
    let inner := if n % s = 0 then n else sub32 (sub32 n s) (n % s)
    (inner = n ∧ Blocks.steps inner s = Grid.count n req ∧ ∀ b, b < Grid.count n req → Grid.hi n req b - Grid.lo n req b = s) ∨
    (inner ≠ n ∧ Blocks.steps inner s + 1 = Grid.count n req ∧ inner = Grid.lo n req (Grid.count n req - 1) ∧
      (∀ b, b + 1 < Grid.count n req → Grid.hi n req b - Grid.lo n req b = s) ∧
      sub32 n inner = Grid.hi n req (Grid.count n req - 1) - Grid.lo n req (Grid.count n req - 1)) := by
  intro s inner
  have hc := Grid.count_pos h1 h2
  have hs := Grid.le_size h1 h2
  have hnn := Grid.n_eq h1 h2
  have hs' : s = Grid.size n req := rfl
  have hml := Nat.mod_lt n (show 0 < Grid.size n req by omega)
  rw [← hs'] at hs hnn hml
  have hsteps : ∀ c, Blocks.steps (c * s) s = c := by
    intro c
    unfold Blocks.steps
    have : c * s + s - 1 = (s - 1) + s * c := by rw [Nat.mul_comm]; omega
    rw [this, Nat.add_mul_div_left _ _ (by omega), Nat.div_eq_of_lt (by omega)]; omega
  have hreg : ∀ b, b + 1 < Grid.count n req → Grid.hi n req b - Grid.lo n req b = s := by
    intro b hb
    unfold Grid.hi Grid.lo
    rw [if_neg (by omega), Nat.succ_mul]; omega
  by_cases h0 : n % s = 0
  · left
    have hi0 : inner = n := if_pos h0
    have hn' : n = Grid.count n req * s := by omega
    refine ⟨hi0, ?_, ?_⟩
    · rw [hi0]
      have e := hsteps (Grid.count n req)
      rw [← hn'] at e; exact e
    · intro b hb
      by_cases e : b + 1 = Grid.count n req
      · unfold Grid.hi Grid.lo
        rw [if_pos e, ← hs']
        have : Grid.count n req * s = b * s + s := by rw [← e, Nat.succ_mul]
        omega
      · exact hreg b (by omega)
  · right
    have hcs : Grid.count n req * s = (Grid.count n req - 1) * s + s := by
      have : Grid.count n req = (Grid.count n req - 1) + 1 := by omega
      rw [this, Nat.succ_mul]; simp
    have hi0 : inner = (Grid.count n req - 1) * s := by
      show (if n % s = 0 then n else sub32 (sub32 n s) (n % s)) = _
      rw [if_neg h0, sub32_of_le (by omega) hn, sub32_of_le (by omega) (by omega)]
      omega
    have hlo : Grid.lo n req (Grid.count n req - 1) = (Grid.count n req - 1) * s := rfl
    refine ⟨by omega, ?_, by rw [hi0, hlo], hreg, ?_⟩
    · rw [hi0, hsteps]; omega
    · rw [hi0, sub32_of_le (by omega) hn, Grid.hi_last h1 h2, hlo]

/-- One row of blocks, with the counter. -/
theorem row_eq {n req : Nat} (h1 : 1 ≤ req) (h2 : req ≤ n) (hn : n < P32) {nb idx0 : Nat} {f : Nat → Nat → Nat → M V Unit}
    (hidx : idx0 + Grid.count n req * nb < P32) {inner : Nat}
    (hinner : inner = if n % Grid.size n req = 0 then n else sub32 (sub32 n (Grid.size n req)) (n % Grid.size n req)) :
    (M.loopS (Blocks.steps inner (Grid.size n req)) idx0 (fun i index =>
        f (i * Grid.size n req) (Grid.size n req) index >>= fun _ => pure (wrap32 (index + nb))) >>= fun index =>
      if inner ≠ n then (f inner (sub32 n inner) index >>= fun _ => pure (wrap32 (index + nb))) else pure index) =
    (M.loop (Grid.count n req) (fun b => f (Grid.lo n req b) (Grid.hi n req b - Grid.lo n req b) (idx0 + b * nb)) >>= fun _ =>
      pure (idx0 + Grid.count n req * nb)) := by
  have hc := Grid.count_pos h1 h2
  have hle : ∀ i, i < Grid.count n req → wrap32 (idx0 + i * nb + nb) = idx0 + (i + 1) * nb := by
    intro i hi
    have := Nat.mul_le_mul_right nb (show i + 1 ≤ Grid.count n req from hi)
    rw [Nat.succ_mul] at this ⊢
    rw [wrap32_of_lt (by omega)]; omega
  have hcount := fun m (hm : m ≤ Grid.count n req) => M.loopS_counter (V := V) (n := m)
    (body := fun i index => f (i * Grid.size n req) (Grid.size n req) index) (next := fun s => wrap32 (s + nb))
    (g := fun i => idx0 + i * nb) (fun i hi => hle i (by omega))
  rcases inner_cases h1 h2 hn with ⟨a1, a2, a3⟩ | ⟨a1, a2, a3, a4, a5⟩
  · rw [← hinner] at a1 a2
    rw [a2]
    have hh := hcount _ (Nat.le_refl _)
    simp only [Nat.zero_mul, Nat.add_zero] at hh
    rw [hh, M.bind_assoc']
    simp only [M.pure_bind', a1, ne_eq, not_true_eq_false, if_false]
    congr 1
    exact M.loop_congr (fun b hb => by rw [a3 b hb]; rfl)
  · rw [← hinner] at a1 a2 a3 a5
    have hm : Blocks.steps inner (Grid.size n req) = Grid.count n req - 1 := by omega
    have hh := hcount (Grid.count n req - 1) (by omega)
    simp only [Nat.zero_mul, Nat.add_zero] at hh
    rw [hm, hh, M.bind_assoc']
    simp only [M.pure_bind', ne_eq, a1, not_false_eq_true, if_true]
    obtain ⟨c, hcc⟩ : ∃ c, Grid.count n req = c + 1 := ⟨Grid.count n req - 1, by omega⟩
    rw [hle _ (by omega), hcc, M.loop_succ, M.bind_assoc', Nat.add_sub_cancel]
    rw [M.loop_congr (g := fun b => f (Grid.lo n req b) (Grid.hi n req b - Grid.lo n req b) (idx0 + b * nb))
      (fun b hb => by rw [a4 b (by omega)]; rfl)]
    rw [hcc, Nat.add_sub_cancel] at a3 a5
    rw [a5, ← a3]

/-- For any block function, the calls made by `computeStatistics` are exactly one per block of the grid, in row-major
order, with the rectangle of the block and the position of its statistics. -/
theorem computeStatistics_eq (ops : BlockOps V) {b : Blocks} {input : Gray} {req : Nat} (h1 : 1 ≤ req)
    (hw : req ≤ input.width) (hh : req ≤ input.height) (hwl : input.width < P32) (hhl : input.height < P32)
    (ebw : b.blockWidth = Grid.size input.width req) (ebh : b.blockHeight = Grid.size input.height req)
    (hl : Grid.count input.width req * Grid.count input.height req * b.stats.numBands < P32) {iw ih : Nat}
    (hiw : iw = if input.width % b.blockWidth = 0 then input.width
      else sub32 (sub32 input.width b.blockWidth) (input.width % b.blockWidth))
    (hih : ih = if input.height % b.blockHeight = 0 then input.height
      else sub32 (sub32 input.height b.blockHeight) (input.height % b.blockHeight)) :
    Blocks.computeStatistics ops b input iw ih = (ops.init b.stats >>= fun _ =>
      M.loop (Grid.count input.height req) (fun j => M.loop (Grid.count input.width req) (fun i =>
        ops.blockStats b.stats (Grid.lo input.width req i) (Grid.lo input.height req j)
          (Grid.hi input.width req i - Grid.lo input.width req i) (Grid.hi input.height req j - Grid.lo input.height req j)
          ((j * Grid.count input.width req + i) * b.stats.numBands) input))) := by
  unfold Blocks.computeStatistics
  congr 1
  funext _
  simp only
  rw [ebw] at hiw ⊢
  rw [ebh] at hih ⊢
  generalize hnb : b.stats.numBands = nb at *
  generalize hcw : Grid.count input.width req = cw at *
  generalize hch : Grid.count input.height req = ch at *
  have hidx : ∀ j, j < ch → j * cw * nb + cw * nb ≤ cw * ch * nb := by
    intro j hj
    have := Nat.mul_le_mul_right (cw * nb) (show j + 1 ≤ ch from hj)
    have e1 : (j + 1) * (cw * nb) = j * cw * nb + cw * nb := by ring
    have e2 : ch * (cw * nb) = cw * ch * nb := by ring
    omega
  -- the rows with the regular height
  have hrow : ∀ (j y bh : Nat), j < ch →
      (M.loopS (Blocks.steps iw (Grid.size input.width req)) (j * cw * nb) (fun i index => do
        ops.blockStats b.stats (i * Grid.size input.width req) y (Grid.size input.width req) bh index input
        pure (wrap32 (index + nb))) >>= fun index =>
      if iw ≠ input.width then do
        ops.blockStats b.stats iw y (sub32 input.width iw) bh index input
        pure (wrap32 (index + nb))
      else pure index) =
      (M.loop cw (fun i => ops.blockStats b.stats (Grid.lo input.width req i) y
        (Grid.hi input.width req i - Grid.lo input.width req i) bh ((j * cw + i) * nb) input) >>= fun _ =>
        pure ((j + 1) * cw * nb)) := by
    intro j y bh hj
    have := row_eq (V := V) h1 hw hwl (nb := nb) (idx0 := j * cw * nb)
      (f := fun x w index => ops.blockStats b.stats x y w bh index input) (by rw [hcw]; have := hidx j hj; omega) hiw
    rw [hcw] at this
    rw [this]
    have e1 : j * cw * nb + cw * nb = (j + 1) * cw * nb := by ring
    rw [e1]
    congr 1
    refine M.loop_congr (fun i _ => ?_)
    rw [show j * cw * nb + i * nb = (j * cw + i) * nb by ring]
  let rowM : Nat → Nat → Nat → M V Unit := fun j y bh =>
    M.loop cw (fun i => ops.blockStats b.stats (Grid.lo input.width req i) y
        (Grid.hi input.width req i - Grid.lo input.width req i) bh ((j * cw + i) * nb) input)
  -- rows 0 .. m-1 of the regular part
  have hrows : ∀ m, m ≤ ch → M.loopS m 0 (fun j index => do
      let index ← M.loopS (Blocks.steps iw (Grid.size input.width req)) index (fun i index => do
        ops.blockStats b.stats (i * Grid.size input.width req) (j * Grid.size input.height req) (Grid.size input.width req)
          (Grid.size input.height req) index input
        pure (wrap32 (index + nb)))
      if iw ≠ input.width then do
        ops.blockStats b.stats iw (j * Grid.size input.height req) (sub32 input.width iw) (Grid.size input.height req) index input
        pure (wrap32 (index + nb))
      else pure index) = (M.loop m (fun j => rowM j (j * Grid.size input.height req) (Grid.size input.height req)) >>=
        fun _ => pure (m * cw * nb)) := by
    intro m
    induction m with
    | zero => intro _; simp only [Nat.zero_mul]; rfl
    | succ m ih =>
      intro hm
      rw [M.loop_succ]
      show (M.loopS m 0 _ >>= _) = _
      rw [ih (by omega), M.bind_assoc', M.bind_assoc']
      congr 1
      funext _
      rw [M.pure_bind']
      exact hrow m _ _ (by omega)
  have hc := Grid.count_pos h1 hh
  rw [hch] at hc
  rcases inner_cases h1 hh hhl with ⟨a1, a2, a3⟩ | ⟨a1, a2, a3, a4, a5⟩
  · rw [← hih] at a1 a2
    rw [a2, hch, hrows ch (Nat.le_refl _), M.bind_assoc']
    simp only [a1, ne_eq, not_true_eq_false, if_false, M.pure_bind']
    rw [M.bind_unit]
    refine M.loop_congr (fun j hj => ?_)
    rw [a3 j (by omega)]; rfl
  · rw [← hih] at a1 a2 a3 a5
    obtain ⟨c, hcc⟩ : ∃ c, ch = c + 1 := ⟨ch - 1, by omega⟩
    have hm : Blocks.steps ih (Grid.size input.height req) = c := by omega
    rw [hch, hcc, Nat.add_sub_cancel] at a3 a5
    rw [hm, hrows c (by omega), M.bind_assoc']
    simp only [ne_eq, a1, not_false_eq_true, if_true, M.pure_bind']
    have hlast := hrow c ih (sub32 input.height ih) (by omega)
    have hlast' := congrArg (fun m => m >>= fun _ => (pure () : M V Unit)) hlast
    simp only [M.bind_assoc', M.pure_bind'] at hlast'
    rw [hcc, M.loop_succ]
    congr 1
    · refine M.loop_congr (fun j hj => ?_)
      rw [a4 j (by omega)]; rfl
    · funext _
      rw [M.bind_unit, a5, ← a3] at hlast'
      rw [← a3]
      refine Eq.trans ?_ hlast'
      rw [a5, ← a3]
      congr 1
      funext index
      by_cases e : iw = input.width
      · simp only [e, ne_eq, not_true_eq_false, if_false]; rfl
      · simp only [e, ne_eq, not_false_eq_true, if_true]; rw [M.bind_assoc']; simp only [M.pure_bind']; rw [M.bind_unit]


/-! ### Consecutive cells of one array -/

/-- Heap `h'` is `h` with cells `[lo,hi)` of array `b` set to `v`. -/
structure CellsSet (h h' : Heap V) (b lo hi : Nat) (v : Nat → V) : Prop where
  cells : ∀ i, lo ≤ i → i < hi → h'.cell b i = some (v i)
  frame : ∀ b' i, ¬(b' = b ∧ lo ≤ i ∧ i < hi) → h'.cell b' i = h.cell b' i
  alive : ∀ b', (h'.get b').isSome = (h.get b').isSome
  next : h'.next = h.next

namespace CellsSet
variable {h h1 h2 : Heap V} {b lo mid hi : Nat} {v w : Nat → V}

theorem refl (h : Heap V) (b lo : Nat) (v : Nat → V) : CellsSet h h b lo lo v :=
  ⟨fun i h1 h2 => by omega, fun _ _ _ => rfl, fun _ => rfl, rfl⟩

theorem congr (hs : CellsSet h h1 b lo hi v) (e : ∀ i, lo ≤ i → i < hi → v i = w i) : CellsSet h h1 b lo hi w :=
  { hs with cells := fun i h1 h2 => by rw [hs.cells i h1 h2, e i h1 h2] }

theorem trans (h01 : CellsSet h h1 b lo mid v) (h12 : CellsSet h1 h2 b mid hi v) (hlm : lo ≤ mid) (hmh : mid ≤ hi) :
    CellsSet h h2 b lo hi v :=
  ⟨fun i hi1 hi2 => by
      by_cases e : mid ≤ i
      · exact h12.cells i e hi2
      · rw [h12.frame b i (by omega)]; exact h01.cells i hi1 (by omega),
   fun b' i hn => by
      rw [h12.frame b' i (fun ⟨a, c, d⟩ => hn ⟨a, by omega, d⟩), h01.frame b' i (fun ⟨a, c, d⟩ => hn ⟨a, c, by omega⟩)],
   fun b' => by rw [h12.alive, h01.alive], by rw [h12.next, h01.next]⟩

theorem wr {i : Nat} {x : V} (hs : CellsSet h h1 b lo i v) (hlo : lo ≤ i) (he : ∃ w, h1.cell b i = some w) (hx : x = v i) :
    Spec (M.wr b i x) h1 (fun _ h2 => CellsSet h h2 b lo (i+1) v) := by
  obtain ⟨w, hw⟩ := he
  refine Spec.of_eq (M.wr_run hw) ?_
  refine hs.trans (mid := i) ⟨?_, ?_, ?_, Heap.next_setCell _ _ _⟩ hlo (by omega)
  · intro k h1 h2
    have : k = i := by omega
    subst this
    rw [Heap.cell_setCell hw, if_pos ⟨rfl, rfl⟩, hx]
  · intro b' k hn
    rw [Heap.cell_setCell hw, if_neg (fun ⟨a, c⟩ => hn ⟨a, by omega, by omega⟩)]
  · intro b'
    by_cases e : b' = b
    · subst e
      obtain ⟨l, hl⟩ : ∃ l, h1.get b' = some l := by
        cases hg : h1.get b' with
        | none => simp [Heap.cell, hg] at hw
        | some l => exact ⟨l, rfl⟩
      rw [Heap.get_setCell_same hl, hl]; rfl
    · rw [Heap.get_setCell_ne e]

theorem valid {a : Gray} (hs : CellsSet h h1 b lo hi v) (ha : a.Valid h) (hne : a.buf ≠ b) : a.Valid h1 :=
  ha.transfer (by rw [hs.alive]; exact ha.live) (fun i hi => by rw [hs.frame _ _ (fun e => hne e.1)]; exact ha.cells i hi)

theorem shows {a : Gray} {f : Nat → Nat → V} (hs : CellsSet h h1 b lo hi v) (ha : a.Shows h f) (hne : a.buf ≠ b) :
    a.Shows h1 f := by
  intro x y hx hy
  unfold Heap.px
  rw [hs.frame _ _ (fun e => hne e.1)]; exact ha x y hx hy

end CellsSet

/-- Pixel `(x,y)` is in block `(i,j)` of the grid of a `w × ht` image. -/
def InBlock (w ht req i j x y : Nat) : Prop := Grid.Has w req i x ∧ Grid.Has ht req j y

/-- What `computeBlockStatistics` has to do for block `(i,j)`: set the `nb` statistics of the block to `S i j`, given that
they satisfy `Ini` before. -/
def StatsOk (ops : BlockOps V) (st : Interleaved) (input : Gray) (f : Nat → Nat → V) (req : Nat) (Ini : V → Prop)
    (S : Nat → Nat → Nat → V) : Prop :=
  ∀ i j h, i < Grid.count input.width req → j < Grid.count input.height req → input.Valid h → input.Shows h f →
    input.buf ≠ st.buf →
    let idx := (j * Grid.count input.width req + i) * st.numBands
    idx + st.numBands < P32 →
    (∀ k, k < st.numBands → ∃ v, h.cell st.buf (idx + k) = some v ∧ Ini v) →
    Spec (ops.blockStats st (Grid.lo input.width req i) (Grid.lo input.height req j)
      (Grid.hi input.width req i - Grid.lo input.width req i) (Grid.hi input.height req j - Grid.lo input.height req j)
      idx input) h (fun _ h' => CellsSet h h' st.buf idx (idx + st.numBands) (fun k => S i j (k - idx)))

/-- What `thresholdBlock` has to do for block `(i,j)`: paint exactly that block of the output with `F`. -/
def ThreshOk (ops : BlockOps V) (b : Blocks) (input output : Gray) (f : Nat → Nat → V) (req : Nat)
    (S : Nat → Nat → Nat → V) (F : Nat → Nat → V) : Prop :=
  ∀ i j h h1 h2 P, i < Grid.count input.width req → j < Grid.count input.height req →
    b.stats.Valid h2 → b.stats.Shows h2 S → output.Valid h1 → Readable h h1 input output f →
    Painted h1 h2 output (sel P F) → (∀ x y, InBlock input.width input.height req i j x y → ¬P x y) →
    Spec (ops.thresholdBlock b i j input output) h2 (fun _ h3 => Painted h1 h3 output
      (sel (fun x y => P x y ∨ InBlock input.width input.height req i j x y) F))

theorem Interleaved.Valid.transfer {h h' : Heap V} {g : Interleaved} (hv : g.Valid h) (hl : (h'.get g.buf).isSome)
    (hc : ∀ i, i < g.dataLength → ∃ v, h'.cell g.buf i = some v) : g.Valid h' := { hv with live := hl, cells := hc }

theorem blockStats_all (ops : BlockOps V) {h : Heap V} {st : Interleaved} {input : Gray} {f : Nat → Nat → V} {req : Nat}
    {Ini : V → Prop} {S : Nat → Nat → Nat → V} (hok : StatsOk ops st input f req Ini S) (hv : input.Valid h)
    (hf : input.Shows h f) (hne : input.buf ≠ st.buf) {nb cw ch : Nat} (enb : st.numBands = nb)
    (ecw : Grid.count input.width req = cw) (ech : Grid.count input.height req = ch) (hl : cw * ch * nb < P32)
    (hnb : 0 < nb)
    (hini : ∀ k, k < cw * ch * nb → ∃ v, h.cell st.buf k = some v ∧ Ini v) :
    Spec (M.loop ch (fun j => M.loop cw (fun i =>
        ops.blockStats st (Grid.lo input.width req i) (Grid.lo input.height req j)
          (Grid.hi input.width req i - Grid.lo input.width req i) (Grid.hi input.height req j - Grid.lo input.height req j)
          ((j * cw + i) * nb) input))) h
      (fun _ h' => CellsSet h h' st.buf 0 (cw * ch * nb) (fun k => S (k / nb % cw) (k / nb / cw) (k % nb))) := by
  subst enb
  refine Spec.conseq (Spec.loop (fun j h' => CellsSet h h' st.buf 0 (j * cw * st.numBands)
    (fun k => S (k / st.numBands % cw) (k / st.numBands / cw) (k % st.numBands))) ?_ ?_) ?_
  · rw [Nat.zero_mul, Nat.zero_mul]; exact CellsSet.refl _ _ _ _
  · intro j h1 hj hs
    refine Spec.conseq (Spec.loop (fun i h' => CellsSet h h' st.buf 0 ((j * cw + i) * st.numBands)
      (fun k => S (k / st.numBands % cw) (k / st.numBands / cw) (k % st.numBands))) (by simpa using hs) ?_) ?_
    · intro i h2 hi hs2
      have hle : (j * cw + i + 1) * st.numBands ≤ cw * ch * st.numBands := by
        apply Nat.mul_le_mul_right
        have := rows_fit (w := cw) hj
        omega
      rw [Nat.succ_mul] at hle
      have key := hok i j h2 (by omega) (by omega) (hs2.valid hv hne) (hs2.shows hf hne) hne
      rw [ecw] at key
      simp only at key
      have key := key (by omega) (fun k hk => by
        rw [hs2.frame _ _ (by omega)]
        exact hini _ (by omega))
      refine Spec.conseq key ?_
      intro _ h3 hs3
      rw [show (j * cw + (i + 1)) * st.numBands = (j * cw + i) * st.numBands + st.numBands by ring]
      refine hs2.trans (hs3.congr ?_) (by omega) (by omega)
      intro k hk1 hk2
      obtain ⟨d, rfl⟩ : ∃ d, k = (j * cw + i) * st.numBands + d := ⟨k - (j * cw + i) * st.numBands, by omega⟩
      have hd : d < st.numBands := by omega
      have e1 : ((j * cw + i) * st.numBands + d) / st.numBands = j * cw + i := by
        rw [Nat.mul_comm, Nat.mul_add_div hnb, Nat.div_eq_of_lt hd]; omega
      have e2 : ((j * cw + i) * st.numBands + d) % st.numBands = d := by
        rw [Nat.mul_comm, Nat.mul_add_mod, Nat.mod_eq_of_lt hd]
      have e3 : (j * cw + i) % cw = i := by rw [Nat.mul_comm, Nat.mul_add_mod, Nat.mod_eq_of_lt hi]
      have e4 : (j * cw + i) / cw = j := by
        rw [Nat.mul_comm, Nat.mul_add_div (by omega), Nat.div_eq_of_lt hi]; omega
      show S i j _ = _
      rw [e1, e2, e3, e4, Nat.add_sub_cancel_left]
    · intro _ h2 hs2
      rw [show j * cw + cw = (j + 1) * cw by ring] at hs2
      exact hs2
  · intro _ h1 hs
    rw [Nat.mul_comm ch cw] at hs
    exact hs

theorem threshold_all (ops : BlockOps V) {b : Blocks} {input output : Gray} {f : Nat → Nat → V} {req : Nat}
    {S : Nat → Nat → Nat → V} {F : Nat → Nat → V} (hok : ThreshOk ops b input output f req S F) {h h1 : Heap V}
    (h1r : 1 ≤ req) (hwr : req ≤ input.width) (hhr : req ≤ input.height)
    (hsv : b.stats.Valid h1) (hss : b.stats.Shows h1 S) (hov : output.Valid h1) (hr : Readable h h1 input output f)
    (hne : b.stats.buf ≠ output.buf) (ew : output.width = input.width) (eh : output.height = input.height)
    (ecw : b.stats.width = Grid.count input.width req) (ech : b.stats.height = Grid.count input.height req) :
    Spec (Blocks.applyThreshold ops b input output) h1
      (fun _ h2 => Painted h1 h2 output (fun x y => some (F x y))) := by
  unfold Blocks.applyThreshold
  rw [ecw, ech]
  generalize hcw : Grid.count input.width req = cw
  generalize hch : Grid.count input.height req = ch
  have hstats : ∀ {h2 : Heap V} {P : Nat → Nat → Prop}, Painted h1 h2 output (sel P F) →
      b.stats.Valid h2 ∧ b.stats.Shows h2 S := by
    intro h2 P hp
    have hc : ∀ i, h2.cell b.stats.buf i = h1.cell b.stats.buf i := fun i => hp.frame _ _ (fun x y _ _ e => hne e.1)
    refine ⟨hsv.transfer (by rw [hp.alive]; exact hsv.live) (fun i hi => by rw [hc]; exact hsv.cells i hi), ?_⟩
    intro x y k hx hy hk
    unfold Heap.px3
    rw [hc]; exact hss x y k hx hy hk
  let P : Nat → Nat → Nat → Nat → Prop := fun j i x y => ∃ i' j', i' < cw ∧ (j' < j ∨ (j' = j ∧ i' < i)) ∧
    InBlock input.width input.height req i' j' x y
  have := Spec.loop (n := ch) (body := fun j => M.loop cw (fun i => ops.thresholdBlock b i j input output)) (h := h1)
    (fun j h2 => Painted h1 h2 output (sel (P j 0) F))
    (Painted.sel_none (fun x y _ _ ⟨i', j', _, hh, _⟩ => by omega))
    (fun j h2 hj hp => by
      refine Spec.conseq (Spec.loop (fun i h3 => Painted h1 h3 output (sel (P j i) F)) hp ?_) ?_
      · intro i h3 hi hp3
        obtain ⟨a1, a2⟩ := hstats hp3
        refine Spec.conseq (hok i j h h1 h3 (P j i) (by omega) (by omega) a1 a2 hov hr hp3 ?_) ?_
        · rintro x y ⟨q1, q2⟩ ⟨i', j', r1, r2, r3, r4⟩
          have ej := by
            refine Grid.has_unique h1r hhr (b := j) (b' := j') (by omega) (by omega) q2 r4
          have ei := by
            refine Grid.has_unique h1r hwr (b := i) (b' := i') (by omega) (by omega) q1 r3
          omega
        · intro _ h4 hp4
          refine hp4.sel_iff ?_
          intro x y hx hy
          constructor
          · rintro (⟨i', j', r1, r2, r3⟩ | r)
            · exact ⟨i', j', r1, by omega, r3⟩
            · exact ⟨i, j, hi, Or.inr ⟨rfl, by omega⟩, r⟩
          · rintro ⟨i', j', r1, r2, r3⟩
            by_cases e : i' = i ∧ j' = j
            · obtain ⟨rfl, rfl⟩ := e; exact Or.inr r3
            · exact Or.inl ⟨i', j', r1, by omega, r3⟩
      · intro _ h3 hp3
        refine hp3.sel_iff ?_
        intro x y hx hy
        constructor
        · rintro ⟨i', j', r1, r2, r3⟩; exact ⟨i', j', r1, by omega, r3⟩
        · rintro ⟨i', j', r1, r2, r3⟩; exact ⟨i', j', r1, by omega, r3⟩)
  refine Spec.conseq this ?_
  intro _ h2 hp
  refine hp.sel_all ?_
  intro x y hx hy
  obtain ⟨a1, a2⟩ := Grid.has_blockOf h1r hwr (x := x) (by omega)
  obtain ⟨b1, b2⟩ := Grid.has_blockOf h1r hhr (x := y) (by omega)
  exact ⟨_, _, by omega, Or.inl (by omega), a2, b2⟩

/-- `process` after the requested size is known, for any filter. -/
theorem blocks_run (ops : BlockOps V) (z : V) {h : Heap V} {st : Interleaved} {input output : Gray} {f : Nat → Nat → V}
    {req : Nat} {Ini : V → Prop} {S : Nat → Nat → Nat → V} {F : Nat → Nat → V}
    (hv : input.Valid h) (hf : input.Shows h f) (hov : output.Valid h) (hd : input = output ∨ input.Disjoint output)
    (ew : output.width = input.width) (eh : output.height = input.height)
    (hsv : st.Valid h) (hso : st.subimage = false) (hnb : 0 < st.numBands)
    (hni : input.buf ≠ st.buf) (hno : output.buf ≠ st.buf)
    (h1r : 1 ≤ req) (hwr : req ≤ input.width) (hhr : req ≤ input.height)
    (hl : Grid.count input.width req * Grid.count input.height req * st.numBands < P32)
    (hinit : ∀ (st' : Interleaved) h1, st'.Valid h1 → st'.subimage = false → Spec (ops.init st') h1 (fun _ h2 =>
      (∀ b' i, b' ≠ st'.buf → h2.cell b' i = h1.cell b' i) ∧ (∀ b', (h2.get b').isSome = (h1.get b').isSome) ∧
      h2.next = h1.next ∧
      (∀ i, i < st'.width * st'.height * st'.numBands → ∃ v, h2.cell st'.buf i = some v ∧ Ini v) ∧ 
      ∀ i, i < st'.dataLength → ∃ v, h2.cell st'.buf i = some v))
    (hstat : ∀ st' : Interleaved, st'.numBands = st.numBands → StatsOk ops st' input f req Ini S)
    (hthr : ∀ st' : Interleaved, st'.numBands = st.numBands → st'.width = Grid.count input.width req →
      st'.height = Grid.count input.height req → st'.buf ≠ output.buf →
      ThreshOk ops ⟨st', Grid.size input.width req, Grid.size input.height req⟩ input output f req S F) :
    Spec (Blocks.run ops z st req input output) h (fun b h' =>
      Filtered h h' st b.stats output (Grid.count input.width req) (Grid.count input.height req) S F ∧
      b.blockWidth = Grid.size input.width req ∧ b.blockHeight = Grid.size input.height req) := by
  have hcw := Grid.count_pos h1r hwr
  have hch := Grid.count_pos h1r hhr
  have hsw := Grid.le_size h1r hwr
  have hsh := Grid.le_size h1r hhr
  have hmul : Grid.count input.width req * Grid.count input.height req < P32 :=
    Nat.lt_of_le_of_lt (Nat.le_mul_of_pos_right _ hnb) hl
  have hcwl : Grid.count input.width req < P32 := Nat.lt_of_le_of_lt (Nat.div_le_self _ _) hv.widthLt
  have hchl : Grid.count input.height req < P32 := Nat.lt_of_le_of_lt (Nat.div_le_self _ _) hv.heightLt
  unfold Blocks.run
  rw [if_neg (by omega)]
  have hsel : Blocks.selectBlockSize (V := V) input.width input.height req h =
      .ok (Grid.size input.width req, Grid.size input.height req) h := by
    unfold Blocks.selectBlockSize Blocks.divM
    have e1 : ¬req = 0 := by omega
    have e2 : ¬input.height / req = 0 := by have : 1 ≤ input.height / req := hch; omega
    have e3 : ¬input.width / req = 0 := by have : 1 ≤ input.width / req := hcw; omega
    rw [if_neg e1, if_neg e1]
    refine (M.bind_ok (M.pure_run _ _)).trans ?_
    refine (M.bind_ok (M.pure_run _ _)).trans ?_
    rw [if_neg e2, if_neg e3]
    rfl
  refine Spec.bind_eq hsel ?_
  have hdw : Blocks.divM (V := V) input.width (Grid.size input.width req) h = .ok (Grid.count input.width req) h := by
    unfold Blocks.divM
    rw [if_neg (by omega), Grid.div_size h1r hwr]; rfl
  have hdh : Blocks.divM (V := V) input.height (Grid.size input.height req) h = .ok (Grid.count input.height req) h := by
    unfold Blocks.divM
    rw [if_neg (by omega), Grid.div_size h1r hhr]; rfl
  refine Spec.bind_eq hdw ?_
  refine Spec.bind_eq hdh ?_
  refine Spec.bind (reshape_spec3 z hsv hcwl hchl ?_ hl (Or.inl hso)) ?_
  · refine Nat.lt_of_le_of_lt (Nat.mul_le_mul_right _ (Nat.le_mul_of_pos_right _ hch)) hl
  intro st1 h1 hr
  obtain ⟨ew1, eh1, enb1⟩ := hr.shape
  have hs1 : st1.subimage = false := by rw [hr.sub]; exact hso
  have hbuf : ∀ b, b ≠ st.buf → b < h.next → b ≠ st1.buf := by
    intro b hb hbl
    rcases hr.buf with ⟨e, _⟩ | e
    · rw [e]; exact hb
    · omega
  have hin1 := hbuf _ hni hv.lt_next
  have hout1 := hbuf _ hno hov.lt_next
  have vtrans : ∀ {a : Gray} {h' : Heap V}, a.Valid h → (∀ i, h'.cell a.buf i = h.cell a.buf i) →
      (h'.get a.buf).isSome = (h.get a.buf).isSome → a.Valid h' := fun ha hc hl =>
    ha.transfer (by rw [hl]; exact ha.live) (fun i hi => by rw [hc]; exact ha.cells i hi)
  simp only
  rw [computeStatistics_eq ops (b := ⟨st1, Grid.size input.width req, Grid.size input.height req⟩) h1r hwr hhr hv.widthLt
    hv.heightLt rfl rfl (by simp only; rw [enb1]; exact hl) rfl rfl]
  obtain ⟨off0, str0⟩ := hr.valid.owner hs1
  have hlen : st1.width * st1.height * st1.numBands ≤ st1.dataLength := by
    have := hr.valid.fits (st1.height - 1) (by omega)
    rw [off0, str0] at this
    obtain ⟨c, hc⟩ : ∃ c, st1.height = c + 1 := ⟨st1.height - 1, by omega⟩
    rw [hc, Nat.add_sub_cancel] at this
    rw [hc]
    have e : st1.width * (c + 1) * st1.numBands = 0 + c * (st1.width * st1.numBands) + st1.width * st1.numBands := by ring
    omega
  rw [M.bind_assoc']
  refine Spec.bind (hinit st1 h1 hr.valid hs1) ?_
  intro _ h2 ⟨q1, q2, q3, q4, q5⟩
  have hc2 : ∀ b i, b ≠ st.buf → b < h.next → h2.cell b i = h.cell b i := fun b i hb hbl => by
    rw [q1 b i (hbuf b hb hbl), hr.frame b i hb hbl]
  have ha2 : ∀ b, b ≠ st.buf → b < h.next → (h2.get b).isSome = (h.get b).isSome := fun b hb hbl => by
    rw [q2 b, hr.alive b hb hbl]
  refine Spec.bind (blockStats_all ops (hstat st1 enb1) (h := h2) (vtrans hv (fun i => hc2 _ i hni hv.lt_next)
    (ha2 _ hni hv.lt_next)) (fun x y hx hy => by unfold Heap.px; rw [hc2 _ _ hni hv.lt_next]; exact hf x y hx hy) hin1
    rfl rfl rfl (by rw [enb1]; exact hl) (by show 0 < st1.numBands; omega) (by rw [← ew1, ← eh1]; exact q4)) (fun _ h3 hs => ?_)
  · 
    have hc3 : ∀ b i, b ≠ st.buf → b < h.next → h3.cell b i = h.cell b i := fun b i hb hbl => by
      rw [hs.frame b i (fun e => hbuf b hb hbl e.1), q1 b i (hbuf b hb hbl), hr.frame b i hb hbl]
    have ha3 : ∀ b, b ≠ st.buf → b < h.next → (h3.get b).isSome = (h.get b).isSome := fun b hb hbl => by
      rw [hs.alive, q2 b, hr.alive b hb hbl]
    have hv3 := vtrans hv (fun i => hc3 _ i hni hv.lt_next) (ha3 _ hni hv.lt_next)
    have hf3 : input.Shows h3 f := fun x y hx hy => by
      unfold Heap.px; rw [hc3 _ _ hni hv.lt_next]; exact hf x y hx hy
    have hov3 := vtrans hov (fun i => hc3 _ i hno hov.lt_next) (ha3 _ hno hov.lt_next)
    have hsv3 : st1.Valid h3 := hr.valid.transfer (by rw [hs.alive, q2]; exact hr.valid.live) (fun i hi => by
      by_cases e : i < Grid.count input.width req * Grid.count input.height req * st1.numBands
      · exact ⟨_, hs.cells i (by omega) e⟩
      · rw [hs.frame _ _ (fun hh => e hh.2.2)]; exact q5 i hi)
    have hss3 : st1.Shows h3 S := by
      intro x y k hx hy hk
      unfold Heap.px3 Interleaved.addr
      have hx' := hx; have hy' := hy
      rw [ew1] at hx'; rw [eh1] at hy'
      have e0 : st1.offset + y * st1.stride + x * st1.numBands + k = (y * Grid.count input.width req + x) * st1.numBands + k := by
        rw [off0, str0, ew1]; ring
      have hlt : (y * Grid.count input.width req + x) * st1.numBands + k <
          Grid.count input.width req * Grid.count input.height req * st1.numBands := by
        apply band_lt _ hk
        have := rows_fit (w := Grid.count input.width req) hy'
        omega
      rw [e0, hs.cells _ (by omega) hlt]
      have hnb1 : 0 < st1.numBands := by omega
      have e1 : ((y * Grid.count input.width req + x) * st1.numBands + k) / st1.numBands = y * Grid.count input.width req + x := by
        rw [Nat.mul_comm, Nat.mul_add_div hnb1, Nat.div_eq_of_lt hk]; omega
      have e2 : ((y * Grid.count input.width req + x) * st1.numBands + k) % st1.numBands = k := by
        rw [Nat.mul_comm, Nat.mul_add_mod, Nat.mod_eq_of_lt hk]
      have e3 : (y * Grid.count input.width req + x) % Grid.count input.width req = x := by
        rw [Nat.mul_comm, Nat.mul_add_mod, Nat.mod_eq_of_lt hx']
      have e4 : (y * Grid.count input.width req + x) / Grid.count input.width req = y := by
        rw [Nat.mul_comm, Nat.mul_add_div (by omega), Nat.div_eq_of_lt hx']; omega
      rw [e1, e2, e3, e4]
    have hrd : Readable h3 h3 input output f := by
      refine ⟨hv3, fun h4 P G x y hp hx hy hn => ?_⟩
      rcases hd with rfl | hd
      · rw [hp.sel_px hx hy hn]; exact hf3 x y hx hy
      · rw [hp.px_disjoint hd hx hy]; exact hf3 x y hx hy
    refine Spec.bind (threshold_all ops (hthr st1 enb1 ew1 eh1 (Ne.symm hout1)) (h := h3) h1r hwr hhr hsv3 hss3 hov3 hrd (Ne.symm hout1) ew eh
      ew1 eh1) ?_
    intro _ h4 hp
    have hal : ∀ b, (h4.get b).isSome = (h1.get b).isSome := fun b => by rw [hp.alive, hs.alive, q2]
    refine Spec.pure ⟨⟨?_, ?_, ?_, hp.valid hov3 hov3, ?_, ?_, ?_, ?_⟩, rfl, rfl⟩
    · intro x y hx hy
      rw [hp.pix x y hx hy]; rfl
    · intro b i hb hbl hn
      rw [hp.frame b i hn, hc3 b i hb hbl]
    · intro b hb hbl
      rw [hp.alive, ha3 b hb hbl]
    · have hc : ∀ i, h4.cell st1.buf i = h3.cell st1.buf i := fun i => hp.frame _ _ (fun x y _ _ e => hout1 e.1.symm)
      refine ⟨hsv3.transfer (by rw [hp.alive]; exact hsv3.live) (fun i hi => by rw [hc]; exact hsv3.cells i hi), hs1, ew1, eh1,
        enb1, ?_, ?_⟩
      · intro x y k hx hy hk
        unfold Heap.px3
        rw [hc]; exact hss3 x y k hx hy hk
      · rcases hr.buf with ⟨e, _⟩ | e
        · exact Or.inl e
        · exact Or.inr e
    · rw [hp.next, hs.next, q3]; exact hr.nextLe
    · intro b hb hl
      rw [hal] at hl
      exact hr.fresh b hb hl
    · intro c
      have h0 := hr.released c
      have := hal st.buf
      rw [h0] at this
      cases e : h4.get st.buf with
      | none => rfl
      | some l => rw [e] at this; cases this

end Boof
