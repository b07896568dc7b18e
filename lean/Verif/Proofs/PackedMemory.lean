import Verif.Spec.PackedMemory
import Verif.Proofs.PackedSet
import Verif.Cpp.Logic
/-
The memory of a packed set mirrors the value model.
-/
namespace Boof
variable {V : Type}

/-- The object `o` in the memory `h` is the value `p`; the blocks are the arrays `A`. -/
structure Mirrors (h : Heap (Slot V)) (o : PackedObj) (p : PackedSet V) (A : List Nat) : Prop where
  ptrs : h.get o.blocks = some (A.map Slot.addr)
  count : o.count = A.length
  len : A.length = p.blocks.length
  data : ∀ (i : Nat) (row : List V) (a : Nat), p.blocks[i]? = some row → A[i]? = some a → h.get a = some (row.map Slot.elem)
  apart : (o.blocks :: A).Nodup
  size : o.sizeOfBlock = p.sizeOfBlock
  total : o.total = p.total
  info : o.setInfo = p.setInfo

/-- From `h` to `h'` only the arrays `own` were changed or released, and `own'` are what remains of them and what is new. -/
structure KeptBlocks (h h' : Heap (Slot V)) (own own' : List Nat) : Prop where
  other : ∀ b, b < h.next → b ∉ own → h'.get b = h.get b
  fresh : ∀ b, b ∈ own' → b ∈ own ∨ h.next ≤ b
  gone : ∀ b, b ∈ own → b ∉ own' → h'.get b = none
  live : ∀ b, h.next ≤ b → (h'.get b).isSome → b ∈ own'
  next : h.next ≤ h'.next

namespace KeptBlocks
theorem refl (h : Heap (Slot V)) (own : List Nat) : KeptBlocks h h own own where
  other := fun _ _ _ => rfl
  fresh := fun _ hb => Or.inl hb
  gone := fun _ hb hn => absurd hb hn
  live := fun b hb hs => by
    obtain ⟨l, e⟩ := Option.isSome_iff_exists.mp hs
    have := Heap.lt_next_of_get e
    omega
  next := Nat.le_refl _

theorem trans {h h1 h2 : Heap (Slot V)} {own own1 own2 : List Nat} (a : KeptBlocks h h1 own own1) (b : KeptBlocks h1 h2 own1 own2)
    (hl : ∀ x ∈ own, x < h.next) : KeptBlocks h h2 own own2 := by
  have hn1 := a.next
  have hn2 := b.next
  refine ⟨?_, ?_, ?_, ?_, by omega⟩
  · intro x hx hno
    rw [b.other x (by omega) (fun hc => ?_), a.other x hx hno]
    rcases a.fresh x hc with c | c
    · exact hno c
    · omega
  · intro x hx
    rcases b.fresh x hx with c | c
    · exact a.fresh x c
    · right; omega
  · intro x hx hno
    by_cases c : x ∈ own1
    · exact b.gone x c hno
    · rw [b.other x (by have := hl x hx; omega) c]; exact a.gone x hx c
  · intro x hx hs
    rcases Nat.lt_or_ge x h1.next with c | c
    · by_cases c1 : x ∈ own1
      · by_cases c2 : x ∈ own2
        · exact c2
        · rw [b.gone x c1 c2] at hs; cases hs
      · rw [b.other x c c1] at hs
        exact absurd (a.live x hx hs) c1
    · exact b.live x c hs
end KeptBlocks

namespace Mirrors
variable {h : Heap (Slot V)} {o : PackedObj} {p : PackedSet V} {A : List Nat}

theorem addr_some (m : Mirrors h o p A) {i : Nat} {row : List V} (e : p.blocks[i]? = some row) : ∃ a, A[i]? = some a := by
  have : i < p.blocks.length := by
    rcases Nat.lt_or_ge i p.blocks.length with c | c
    · exact c
    · rw [List.getElem?_eq_none c] at e; cases e
  exact ⟨A[i]'(by rw [m.len]; exact this), List.getElem?_eq_getElem _⟩

theorem row_some (m : Mirrors h o p A) {i : Nat} {a : Nat} (e : A[i]? = some a) : ∃ row, p.blocks[i]? = some row := by
  have : i < A.length := by
    rcases Nat.lt_or_ge i A.length with c | c
    · exact c
    · rw [List.getElem?_eq_none c] at e; cases e
  exact ⟨p.blocks[i]'(by rw [← m.len]; exact this), List.getElem?_eq_getElem _⟩

theorem lt (m : Mirrors h o p A) : ∀ x ∈ o.blocks :: A, x < h.next := by
  intro x hx
  rcases List.mem_cons.mp hx with rfl | hx
  · exact Heap.lt_next_of_get m.ptrs
  · obtain ⟨i, hi⟩ := List.mem_iff_getElem?.mp hx
    obtain ⟨row, er⟩ := m.row_some hi
    exact Heap.lt_next_of_get (m.data i row x er hi)

/-- Reading the pointer to a block. -/
theorem rdAddr_run (m : Mirrors h o p A) {i a : Nat} (e : A[i]? = some a) : (rdAddr o.blocks i : M (Slot V) Nat) h = .ok a h := by
  unfold rdAddr
  rw [M.bind_ok (M.rd_run (v := Slot.addr a) ?_)]
  · rfl
  · unfold Heap.cell
    rw [m.ptrs]
    simp [e]

/-- The value does not depend on its own parts other than through the memory. -/
theorem congr (m : Mirrors h o p A) {o' : PackedObj} {p' : PackedSet V} (e1 : o'.blocks = o.blocks) (e2 : o'.count = o.count)
    (e3 : p'.blocks = p.blocks) (e4 : o'.sizeOfBlock = p'.sizeOfBlock) (e5 : o'.total = p'.total) (e6 : o'.setInfo = p'.setInfo) :
    Mirrors h o' p' A :=
  ⟨by rw [e1]; exact m.ptrs, by rw [e2]; exact m.count, by rw [e3]; exact m.len, by rw [e3]; exact m.data, by rw [e1]; exact m.apart, e4, e5, e6⟩

/-- A store to a block. -/
theorem store (m : Mirrors h o p A) {i a j : Nat} {row : List V} (er : p.blocks[i]? = some row) (ea : A[i]? = some a)
    (hj : j < row.length) (v : V) :
    M.wr a j (Slot.elem v) h = .ok () (h.setCell a j (.elem v)) ∧
    Mirrors (h.setCell a j (.elem v)) o { p with blocks := p.blocks.set i (row.set j v) } A ∧
    KeptBlocks h (h.setCell a j (.elem v)) (o.blocks :: A) (o.blocks :: A) := by
  have hg := m.data i row a er ea
  have hmem : a ∈ A := List.mem_iff_getElem?.mpr ⟨i, ea⟩
  have hne : o.blocks ≠ a := by
    rintro rfl
    exact (List.nodup_cons.mp m.apart).1 hmem
  have hc : h.cell a j = some (.elem row[j]) := by
    unfold Heap.cell; rw [hg]; simp [hj]
  refine ⟨M.wr_run hc, ⟨?_, m.count, by simpa using m.len, ?_, m.apart, m.size, m.total, m.info⟩, ?_⟩
  · rw [Heap.get_setCell_ne hne]; exact m.ptrs
  · intro i' row' a' er' ea'
    simp only at er'
    rw [List.getElem?_set] at er'
    by_cases hi : i = i'
    · subst hi
      rw [ea] at ea'; cases ea'
      have : i < p.blocks.length := by
        rcases Nat.lt_or_ge i p.blocks.length with c | c
        · exact c
        · rw [List.getElem?_eq_none c] at er; cases er
      rw [if_pos rfl, if_pos this] at er'
      cases er'
      rw [Heap.get_setCell_same hg]
      simp
    · rw [if_neg hi] at er'
      have hd := m.data i' row' a' er' ea'
      rw [Heap.get_setCell_ne ?_]
      · exact hd
      · rintro rfl
        have hn := (List.nodup_cons.mp m.apart).2
        have h1 : i < A.length := by
          rcases Nat.lt_or_ge i A.length with c | c
          · exact c
          · rw [List.getElem?_eq_none c] at ea; cases ea
        exact hi ((List.getElem?_inj h1 hn).mp (by rw [ea, ea']))
  · refine ⟨?_, fun _ hb => Or.inl hb, fun _ hb hn => absurd hb hn, ?_, by rw [Heap.next_setCell]; exact Nat.le_refl _⟩
    · intro b _ hno
      rw [Heap.get_setCell_ne]
      rintro rfl
      exact hno (List.mem_cons_of_mem _ hmem)
    · intro b hb hs
      obtain ⟨l, e⟩ := Option.isSome_iff_exists.mp hs
      have := Heap.lt_next_of_get e
      rw [Heap.next_setCell] at this
      omega

/-- The place of an element. -/
theorem place_run (m : Mirrors h o p A) {s : PackedSetInfo} {i : Nat} {v : V} (e : p.cell (p.pos s i) = some v) :
    ∃ a, A[p.pos s i / p.sizeOfBlock]? = some a ∧
      (o.place s i : M (Slot V) (Nat × Nat)) h = .ok (a, p.pos s i % p.sizeOfBlock) h ∧
      h.cell a (p.pos s i % p.sizeOfBlock) = some (.elem v) ∧
      ∃ row, p.blocks[p.pos s i / p.sizeOfBlock]? = some row ∧ row[p.pos s i % p.sizeOfBlock]? = some v := by
  unfold PackedSet.cell at e
  by_cases h0 : p.sizeOfBlock = 0
  · rw [if_pos h0] at e; cases e
  rw [if_neg h0] at e
  rcases er : p.blocks[p.pos s i / p.sizeOfBlock]? with _ | row
  · rw [er] at e; cases e
  rw [er] at e
  obtain ⟨a, ea⟩ := m.addr_some er
  refine ⟨a, ea, ?_, ?_, row, rfl, e⟩
  · unfold PackedObj.place
    rw [if_neg (by rw [m.size]; exact h0)]
    simp only [m.size]
    show M.bind _ _ h = _
    have := m.rdAddr_run ea
    unfold PackedSet.pos at this ⊢
    unfold M.bind
    rw [this]
    rfl
  · unfold Heap.cell
    rw [m.data _ _ _ er ea]
    simp only [Option.bind_some] at e ⊢
    rw [List.getElem?_map, e]; rfl

/-- Copying the pointers. -/
theorem copyPtrs (m : Mirrors h o p A) (junk : V) {n : Nat} (hn : n ≤ A.length) {t : Nat} (ht : A.length ≤ t) :
    ∃ h', (M.loop n (fun i => do let a ← M.rd o.blocks i; M.wr h.next i a) : M (Slot V) Unit)
        (h.alloc (List.replicate t (.elem junk))) = .ok () h' ∧
      h'.get h.next = some ((A.map Slot.addr).take n ++ List.replicate (t - n) (.elem junk)) ∧
      (∀ b, b ≠ h.next → h'.get b = h.get b) ∧ h'.next = h.next + 1 := by
  induction n with
  | zero =>
    refine ⟨_, rfl, ?_, ?_, Heap.next_alloc _⟩
    · rw [Heap.get_alloc, if_pos rfl]; simp
    · intro b hb; rw [Heap.get_alloc, if_neg hb]
  | succ n ih =>
    obtain ⟨h1, e1, g1, g2, g3⟩ := ih (by omega)
    have hlt : o.blocks < h.next := Heap.lt_next_of_get m.ptrs
    obtain ⟨a, ea⟩ : ∃ a, A[n]? = some a := ⟨A[n]'(by omega), List.getElem?_eq_getElem _⟩
    have hr : h1.cell o.blocks n = some (.addr a) := by
      unfold Heap.cell
      rw [g2 _ (by omega), m.ptrs]
      simp [ea]
    have hw : h1.cell h.next n = some (.elem junk) := by
      unfold Heap.cell
      rw [g1]
      simp only [Option.bind_some]
      have hl : ((A.map (Slot.addr : Nat → Slot V)).take n).length = n := by simp; omega
      rw [List.getElem?_append_right (by omega), hl, Nat.sub_self, List.getElem?_replicate, if_pos (by omega)]
    refine ⟨h1.setCell h.next n (.addr a), ?_, ?_, ?_, by rw [Heap.next_setCell]; exact g3⟩
    · show M.bind _ _ _ = _
      have e1' := e1
      unfold M.loop at e1'
      unfold M.bind
      rw [e1']
      show M.bind _ _ h1 = _
      unfold M.bind
      rw [M.rd_run hr]
      exact M.wr_run hw
    · rw [Heap.get_setCell_same g1]
      congr 1
      have hl : ((A.map (Slot.addr : Nat → Slot V)).take n).length = n := by simp; omega
      rw [List.set_append_right _ _ (by omega), hl, Nat.sub_self]
      rw [show t - n = (t - (n + 1)) + 1 by omega, List.replicate_succ, List.set_cons_zero]
      rw [List.take_add_one, List.getElem?_map, ea]
      simp
    · intro b hb
      rw [Heap.get_setCell_ne hb]; exact g2 b hb

/-- One more block. -/
theorem addBlock_run (m : Mirrors h o p A) (junk : V) (hb : p.blocks.length + 1 < P32) :
    ∃ o' h', o.addBlock junk p.blocks.length h = .ok o' h' ∧
      Mirrors h' o' { p with blocks := p.blocks ++ [List.replicate p.sizeOfBlock junk] } (A ++ [h.next + 1]) ∧
      KeptBlocks h h' (o.blocks :: A) (o'.blocks :: (A ++ [h.next + 1])) ∧ o'.blocks = h.next ∧
      (∀ b, b ≠ o.blocks → b < h.next → h'.get b = h.get b) ∧ o'.total = o.total ∧ o'.sizeOfBlock = o.sizeOfBlock ∧ o'.setInfo = o.setInfo := by
  have hlen := m.len
  have hcnt := m.count
  have hblt : o.blocks < h.next := Heap.lt_next_of_get m.ptrs
  obtain ⟨h1, e1, g1, g2, g3⟩ := m.copyPtrs junk (n := A.length) (Nat.le_refl _) (t := p.blocks.length + 1) (by omega)
  rw [List.take_of_length_le (by simp)] at g1
  rw [show p.blocks.length + 1 - A.length = 1 by omega] at g1
  have hg2 : (h1.alloc (List.replicate p.sizeOfBlock (Slot.elem junk))).get h.next =
      some (A.map Slot.addr ++ List.replicate 1 (.elem junk)) := by
    rw [Heap.get_alloc, if_neg (by omega), g1]
  have hw : (h1.alloc (List.replicate p.sizeOfBlock (Slot.elem junk))).cell h.next A.length = some (.elem junk) := by
    unfold Heap.cell
    rw [hg2]
    simp only [Option.bind_some]
    rw [List.getElem?_append_right (by simp)]
    simp
  let h2 := (h1.alloc (List.replicate p.sizeOfBlock (Slot.elem junk))).setCell h.next A.length (.addr (h.next + 1))
  have hg3 : h2.get h.next = some ((A ++ [h.next + 1]).map Slot.addr) := by
    show (Heap.setCell _ _ _ _).get _ = _
    rw [Heap.get_setCell_same hg2]
    rw [List.set_append_right _ _ (by simp)]
    simp
  have hg4 : ∀ b, b ≠ h.next → b ≠ h.next + 1 → h2.get b = h.get b := by
    intro b hb1 hb2
    show (Heap.setCell _ _ _ _).get _ = _
    rw [Heap.get_setCell_ne hb1, Heap.get_alloc, if_neg (by omega), g2 b hb1]
  have hg5 : h2.get (h.next + 1) = some (List.replicate p.sizeOfBlock (Slot.elem junk)) := by
    show (Heap.setCell _ _ _ _).get _ = _
    rw [Heap.get_setCell_ne (by omega), Heap.get_alloc, if_pos (by omega)]
  have hn2 : h2.next = h.next + 2 := by
    show (Heap.setCell _ _ _ _).next = _
    rw [Heap.next_setCell, Heap.next_alloc, g3]
  have hold : ∀ b, b ≠ o.blocks → b < h.next → (h2.free o.blocks).get b = h.get b := by
    intro b hb1 hb2
    rw [Heap.get_free, if_neg hb1, hg4 b (by omega) (by omega)]
  refine ⟨{ o with blocks := h.next, count := o.count + 1 }, h2.free o.blocks, ?_, ⟨?_, ?_, ?_, ?_, ?_, m.size, m.total, m.info⟩, ?_, rfl, hold, rfl, rfl, rfl⟩
  · unfold PackedObj.addBlock
    show M.bind _ _ h = _
    unfold M.bind
    rw [wrap32_of_lt hb]
    simp only [M.newArr]
    show M.bind _ _ _ = _
    unfold M.bind
    rw [hcnt, e1]
    simp only
    show M.bind _ _ _ = _
    unfold M.bind
    rw [m.size]
    simp only [M.newArr, g3]
    show M.bind _ _ _ = _
    unfold M.bind
    rw [M.wr_run hw]
    simp only
    show M.bind _ _ _ = _
    unfold M.bind
    have hd : M.delArr o.blocks h2 = .ok () (h2.free o.blocks) := by
      unfold M.delArr
      rw [hg4 _ (by omega) (by omega), m.ptrs]
    rw [show M.delArr o.blocks ((h1.alloc (List.replicate p.sizeOfBlock (Slot.elem junk))).setCell h.next A.length (Slot.addr (h.next + 1))) =
      .ok () (h2.free o.blocks) from hd]
    simp only
    rw [wrap32_of_lt (by omega)]
    rfl
  · rw [Heap.get_free, if_neg (by simp; omega)]; exact hg3
  · simp [hcnt]
  · simp [hlen]
  · intro i row a er ea
    simp only at er
    rcases Nat.lt_or_ge i A.length with c | c
    · rw [List.getElem?_append_left c] at ea
      rw [List.getElem?_append_left (by omega)] at er
      have hmem : a ∈ A := List.mem_iff_getElem?.mpr ⟨i, ea⟩
      have hne : a ≠ o.blocks := by
        rintro rfl; exact (List.nodup_cons.mp m.apart).1 hmem
      rw [hold a hne (m.lt a (List.mem_cons_of_mem _ hmem))]
      exact m.data i row a er ea
    · rw [List.getElem?_append_right c] at ea
      rw [List.getElem?_append_right (by omega)] at er
      rcases hc : i - A.length with _ | k
      · rw [hc] at ea
        rw [show i - p.blocks.length = 0 by omega] at er
        simp only [List.getElem?_cons_zero, Option.some.injEq] at ea er
        subst ea; subst er
        rw [Heap.get_free, if_neg (by omega), hg5]
        simp
      · rw [hc] at ea; simp at ea
  · have hA := List.nodup_cons.mp m.apart
    have hlt := m.lt
    refine List.nodup_cons.mpr ⟨?_, ?_⟩
    · intro hc
      rcases List.mem_append.mp hc with c | c
      · have := hlt h.next (List.mem_cons_of_mem _ c); omega
      · simp at c
    · refine List.nodup_append.mpr ⟨hA.2, by simp, ?_⟩
      intro x hx y hy hxy
      simp only [List.mem_singleton] at hy
      have := hlt x (List.mem_cons_of_mem _ hx)
      omega
  · refine ⟨?_, ?_, ?_, ?_, ?_⟩
    · intro b hb hno
      exact hold b (fun e => hno (by rw [e]; exact List.mem_cons_self ..)) hb
    · intro b hb
      rcases List.mem_cons.mp hb with rfl | hb
      · right; exact Nat.le_refl _
      · rcases List.mem_append.mp hb with c | c
        · left; exact List.mem_cons_of_mem _ c
        · right; simp at c; omega
    · intro b hb hno
      rcases List.mem_cons.mp hb with rfl | hb
      · rw [Heap.get_free, if_pos rfl]
      · exact absurd (List.mem_cons_of_mem _ (List.mem_append_left _ hb)) hno
    · intro b hb hs
      obtain ⟨l, e⟩ := Option.isSome_iff_exists.mp hs
      have := Heap.lt_next_of_get e
      rw [Heap.next_free, hn2] at this
      rcases Nat.lt_or_ge h.next b with c | c
      · exact List.mem_cons_of_mem _ (List.mem_append_right _ (by simp; omega))
      · have : b = h.next := by omega
        subst this; exact List.mem_cons_self ..
    · rw [Heap.next_free, hn2]; omega

end Mirrors

/-- The argument stands for the value `v`. -/
def ElemRef.Is (h : Heap (Slot V)) (v : V) : ElemRef V → Prop
  | .value w => w = v
  | .place b i => h.cell b i = some (.elem v)

theorem rdElem_run {h : Heap (Slot V)} {v : V} {b i : Nat} (he : h.cell b i = some (.elem v)) : rdElem b i h = .ok v h := by
  unfold rdElem
  rw [M.bind_ok (M.rd_run he)]
  rfl

theorem ElemRef.read_run {h : Heap (Slot V)} {v : V} {e : ElemRef V} (he : e.Is h v) : e.read h = .ok v h := by
  cases e with
  | value w => cases he; rfl
  | place b i =>
    exact rdElem_run he

namespace Mirrors
variable {h : Heap (Slot V)} {o : PackedObj} {p : PackedSet V} {A : List Nat}

/-- `_add_element` with an argument in any place of the memory. -/
theorem addElement_run (m : Mirrors h o p A) (junk : V) {v : V} {e : ElemRef V} (he : e.Is h v) {q : PackedSet V}
    (hq : p.addElement junk v = .ok () q) (hb : p.total / p.sizeOfBlock + 1 < P32) :
    ∃ o' h' A', o.addElement junk e h = .ok o' h' ∧ Mirrors h' o' q A' ∧ KeptBlocks h h' (o.blocks :: A) (o'.blocks :: A') ∧ A <+: A' := by
  unfold PackedSet.addElement at hq
  by_cases h0 : p.sizeOfBlock = 0
  · rw [if_pos h0] at hq; cases hq
  rw [if_neg h0] at hq
  -- the rest of the function, from a state in which the block is there
  have rest : ∀ (h1 : Heap (Slot V)) (o1 : PackedObj) (p1 : PackedSet V) (A1 : List Nat), Mirrors h1 o1 p1 A1 → e.Is h1 v →
      p1.total = p.total → p1.sizeOfBlock = p.sizeOfBlock →
      (match p1.blocks[p.total / p.sizeOfBlock]? with
        | none => Res.ub
        | some row =>
          if p1.total % p1.sizeOfBlock < row.length then
            .ok () { p1 with blocks := p1.blocks.set (p.total / p.sizeOfBlock) (row.set (p1.total % p1.sizeOfBlock) v),
                             total := wrap32 (p1.total + 1) }
          else .ub) = .ok () q →
      ∃ o' h', (do
          let a ← rdAddr o1.blocks (p.total / p.sizeOfBlock)
          let v ← e.read
          M.wr a (o1.total % o1.sizeOfBlock) (.elem v)
          pure { o1 with total := wrap32 (o1.total + 1) } : M (Slot V) PackedObj) h1 = .ok o' h' ∧ Mirrors h' o' q A1 ∧
        KeptBlocks h1 h' (o1.blocks :: A1) (o'.blocks :: A1) := by
    intro h1 o1 p1 A1 m1 he1 et es hq1
    rcases er : p1.blocks[p.total / p.sizeOfBlock]? with _ | row
    · rw [er] at hq1; cases hq1
    rw [er] at hq1
    simp only at hq1
    by_cases hl : p1.total % p1.sizeOfBlock < row.length
    · rw [if_pos hl] at hq1
      cases hq1
      obtain ⟨a, ea⟩ := m1.addr_some er
      obtain ⟨w1, w2, w3⟩ := m1.store er ea hl v
      refine ⟨{ o1 with total := wrap32 (o1.total + 1) }, _, ?_, ?_, w3⟩
      · rw [M.bind_ok (m1.rdAddr_run ea), M.bind_ok (ElemRef.read_run he1), m1.size, m1.total, M.bind_ok w1]
        rfl
      · exact w2.congr rfl rfl rfl m1.size (by show wrap32 _ = wrap32 _; rw [m1.total]) m1.info
    · rw [if_neg hl] at hq1; cases hq1
  unfold PackedObj.addElement
  rw [if_neg (by rw [m.size]; exact h0)]
  simp only [m.size, m.total, m.count, m.len]
  by_cases hc : p.total / p.sizeOfBlock = p.blocks.length
  · rw [if_pos hc]
    simp only [hc, if_true] at hq
    obtain ⟨o1, h1, e1, m1, k1, b1, g1, t1, s1, -⟩ := m.addBlock_run junk (by omega)
    have he1 : e.Is h1 v := by
      cases e with
      | value w => exact he
      | place b i =>
        change h.cell b i = some (.elem v) at he
        show h1.cell b i = some (.elem v)
        unfold Heap.cell at he ⊢
        rw [g1 b ?_ ?_]
        · exact he
        · rintro rfl
          rw [m.ptrs] at he
          simp only [Option.bind_some, List.getElem?_map] at he
          rcases hai : A[i]? with _ | a
          · rw [hai] at he; cases he
          · rw [hai] at he; cases he
        · rcases hg : h.get b with _ | l
          · rw [hg] at he; cases he
          · exact Heap.lt_next_of_get hg
    obtain ⟨o', h', e2, m2, k2⟩ := rest h1 o1 _ _ m1 he1 rfl rfl (by rw [hc]; exact hq)
    refine ⟨o', h', _, ?_, m2, k1.trans k2 m.lt, List.prefix_append _ _⟩
    rw [hc] at e2 ⊢
    rw [M.bind_ok e1]
    exact e2
  · rw [if_neg hc]
    simp only [hc, if_false] at hq
    obtain ⟨o', h', e2, m2, k2⟩ := rest h o p A m he rfl rfl hq
    refine ⟨o', h', A, ?_, m2, k2, List.prefix_rfl⟩
    rw [M.bind_ok (M.pure_run o h)]
    exact e2

/-- `push_tail` with an argument in any place of the memory. -/
theorem pushTail_run (m : Mirrors h o p A) (junk : V) {v : V} {e : ElemRef V} (he : e.Is h v) {q : PackedSet V}
    (hq : p.pushTail junk v = .ok () q) (hb : p.total / p.sizeOfBlock + 1 < P32) :
    ∃ o' h' A', o.pushTail junk e h = .ok o' h' ∧ Mirrors h' o' q A' ∧ KeptBlocks h h' (o.blocks :: A) (o'.blocks :: A') ∧ A <+: A' := by
  have rest : ∀ (o1 : PackedObj) (p1 : PackedSet V), Mirrors h o1 p1 A → o1.blocks = o.blocks → p1.total / p1.sizeOfBlock + 1 < P32 →
      (match p1.addElement junk v with
        | .ok _ p2 => p2.bumpTail
        | r => r) = .ok () q →
      ∃ o' h' A', (do
          let o ← o1.addElement junk e
          match o.setInfo.getLast? with
          | none => M.ub
          | some s => pure { o with setInfo := o.setInfo.dropLast ++ [{ s with size := wrap32 (s.size + 1) }] } : M (Slot V) PackedObj) h =
        .ok o' h' ∧ Mirrors h' o' q A' ∧ KeptBlocks h h' (o.blocks :: A) (o'.blocks :: A') ∧ A <+: A' := by
    intro o1 p1 m1 eb hb1 hq1
    rcases ha : p1.addElement junk v with ⟨_, p2⟩ | _ | _ | _
    · rw [ha] at hq1
      simp only at hq1
      obtain ⟨o2, h2, A2, e2, m2, k2, x2⟩ := m1.addElement_run junk he ha hb1
      unfold PackedSet.bumpTail at hq1
      rcases hs : p2.setInfo.getLast? with _ | s
      · rw [hs] at hq1; cases hq1
      · rw [hs] at hq1; cases hq1
        refine ⟨{ o2 with setInfo := o2.setInfo.dropLast ++ [{ s with size := wrap32 (s.size + 1) }] }, h2, A2, ?_, ?_, ?_, x2⟩
        · rw [M.bind_ok e2, m2.info, hs]; rfl
        · exact m2.congr rfl rfl rfl m2.size m2.total (by show _ = _; rw [m2.info])
        · rw [← eb]; exact k2
    · rw [ha] at hq1; cases hq1
    · rw [ha] at hq1; cases hq1
    · rw [ha] at hq1; cases hq1
  unfold PackedSet.pushTail at hq
  unfold PackedObj.pushTail
  rw [m.info]
  by_cases hc : p.setInfo.length = 0
  · rw [if_pos hc] at hq ⊢
    unfold PackedSet.startNewSet at hq
    unfold PackedObj.startNewSet
    rw [m.size]
    by_cases h0 : p.sizeOfBlock = 0
    · rw [if_pos h0] at hq; cases hq
    · rw [if_neg h0] at hq ⊢
      simp only at hq
      rw [M.bind_ok (M.pure_run _ h)]
      exact rest _ { p with setInfo := p.setInfo ++ [{ block := p.total / p.sizeOfBlock, offset := p.total % p.sizeOfBlock, size := 0 }] }
        (m.congr rfl rfl rfl rfl m.total (by show o.setInfo ++ _ = p.setInfo ++ _; rw [m.info, m.total])) rfl hb hq
  · rw [if_neg hc] at hq ⊢
    simp only at hq
    rw [M.bind_ok (M.pure_run _ h)]
    exact rest o p m rfl hb hq

/-- `write_set`. -/
theorem writeLoop_run (m : Mirrors h o p A) {s : PackedSetInfo} {input : List V} {n : Nat} {q : PackedSet V}
    (hq : PackedSet.writeLoop s input p n = some q) (body : Nat → M (Slot V) Unit)
    (hbody : ∀ i, body i = (do
        let (a, j) ← o.place s i
        match input[i]? with
        | some v => M.wr a j (.elem v)
        | none => M.ub)) :
    ∃ h', M.loop n body h = .ok () h' ∧ Mirrors h' o q A ∧ KeptBlocks h h' (o.blocks :: A) (o.blocks :: A) := by
  induction n generalizing q with
  | zero => cases hq; exact ⟨h, rfl, m, KeptBlocks.refl _ _⟩
  | succ n ih =>
    simp only [PackedSet.writeLoop] at hq
    rcases h1 : PackedSet.writeLoop s input p n with _ | q1
    · rw [h1] at hq; cases hq
    rw [h1] at hq
    simp only [Option.bind_some] at hq
    rcases hc : q1.cell (q1.pos s n) with _ | w
    · rw [hc] at hq; cases hq
    rcases hi : input[n]? with _ | v
    · rw [hc, hi] at hq; cases hq
    rw [hc, hi] at hq
    simp only [Option.some.injEq] at hq
    obtain ⟨h', e1, m1, k1⟩ := ih h1
    obtain ⟨a, ea, er, -, row, erow, ew⟩ := m1.place_run hc
    have hl : q1.pos s n % q1.sizeOfBlock < row.length := by
      rcases Nat.lt_or_ge (q1.pos s n % q1.sizeOfBlock) row.length with c | c
      · exact c
      · rw [List.getElem?_eq_none c] at ew; cases ew
    obtain ⟨w1, w2, w3⟩ := m1.store erow ea hl v
    refine ⟨_, ?_, ?_, k1.trans w3 m.lt⟩
    · show M.bind (M.loop n body) (fun _ => body n) h = _
      unfold M.bind
      rw [e1]
      simp only
      rw [hbody, M.bind_ok er]
      simp only [hi]
      exact w1
    · have : q = { q1 with blocks := q1.blocks.set (q1.pos s n / q1.sizeOfBlock) (row.set (q1.pos s n % q1.sizeOfBlock) v) } := by
        rw [← hq]; unfold PackedSet.setCell; rw [erow]
      rw [this]; exact w2

theorem loadLoop_run (m : Mirrors h o p A) {s : PackedSetInfo} {out : List V} {n : Nat} {r : List V}
    (hr : PackedSet.loadLoop p s out n = some r) :
    M.loopS n out (fun i out => do
      let (a, j) ← o.place s i
      let v ← rdElem a j
      pure (out ++ [v])) h = .ok r h := by
  induction n generalizing r with
  | zero => cases hr; rfl
  | succ n ih =>
    simp only [PackedSet.loadLoop] at hr
    rcases h1 : PackedSet.loadLoop p s out n with _ | r1
    · rw [h1] at hr; cases hr
    rw [h1] at hr
    simp only [Option.bind_some] at hr
    rcases hc : p.cell (p.pos s n) with _ | v
    · rw [hc] at hr; cases hr
    rw [hc] at hr
    cases hr
    obtain ⟨a, ea, er, ec, -⟩ := m.place_run hc
    show M.bind _ _ h = _
    unfold M.bind
    rw [ih h1]
    simp only
    rw [M.bind_ok er]
    simp only
    rw [M.bind_ok (rdElem_run ec)]
    rfl

/-- Deleting the first `n` blocks. -/
theorem deleteBlocks (m : Mirrors h o p A) {n : Nat} (hn : n ≤ A.length) :
    ∃ h', (M.loop n (fun i => do let a ← rdAddr o.blocks i; M.delArr a) : M (Slot V) Unit) h = .ok () h' ∧
      (∀ b, h'.get b = if b ∈ A.take n then none else h.get b) ∧ h'.next = h.next := by
  induction n with
  | zero => exact ⟨h, rfl, fun b => by simp, rfl⟩
  | succ n ih =>
    obtain ⟨h1, e1, g1, n1⟩ := ih (by omega)
    obtain ⟨a, ea⟩ : ∃ a, A[n]? = some a := ⟨A[n]'(by omega), List.getElem?_eq_getElem _⟩
    obtain ⟨row, er⟩ := m.row_some ea
    have hA := List.nodup_cons.mp m.apart
    have hb : o.blocks ∉ A.take n := fun c => hA.1 (List.mem_of_mem_take c)
    have ha : a ∉ A.take n := by
      intro c
      obtain ⟨k, hk⟩ := List.mem_iff_getElem?.mp c
      rw [List.getElem?_take] at hk
      split at hk
      · rename_i hkn
        have := (List.getElem?_inj (j := n) (show k < A.length by omega) hA.2).mp (by rw [hk, ea])
        omega
      · cases hk
    refine ⟨h1.free a, ?_, ?_, by rw [Heap.next_free]; exact n1⟩
    · show M.bind (M.loop n _) _ h = _
      unfold M.bind
      rw [e1]
      simp only
      have hr : (rdAddr o.blocks n : M (Slot V) Nat) h1 = .ok a h1 := by
        unfold rdAddr
        rw [M.bind_ok (M.rd_run (v := Slot.addr a) ?_)]
        · rfl
        · unfold Heap.cell
          rw [g1, if_neg hb, m.ptrs]
          simp [ea]
      rw [M.bind_ok hr]
      unfold M.delArr
      rw [g1, if_neg ha, m.data n row a er ea]
    · intro b
      rw [Heap.get_free, g1, List.take_add_one, ea]
      by_cases c : b = a
      · subst c; simp
      · simp [c]

/-- The destructor releases the blocks and the pointer array, and nothing else. -/
theorem destroy_run (m : Mirrors h o p A) :
    ∃ h', o.destroy h = .ok () h' ∧ (∀ b, h'.get b = if b ∈ o.blocks :: A then none else h.get b) ∧ h'.next = h.next := by
  obtain ⟨h1, e1, g1, n1⟩ := m.deleteBlocks (n := A.length) (Nat.le_refl _)
  rw [List.take_length] at g1
  have hA := List.nodup_cons.mp m.apart
  refine ⟨h1.free o.blocks, ?_, ?_, by rw [Heap.next_free]; exact n1⟩
  · unfold PackedObj.destroy
    rw [m.count, M.bind_ok e1]
    unfold M.delArr
    rw [g1, if_neg hA.1, m.ptrs]
  · intro b
    rw [Heap.get_free, g1]
    by_cases c : b = o.blocks
    · subst c; simp
    · simp [c]

end Mirrors

/-- A new object. -/
theorem new_mirrors (junk : V) (s : Nat) (h : Heap (Slot V)) :
    ∃ o h', PackedObj.new junk s h = .ok o h' ∧ Mirrors h' o (PackedSet.new junk s) [h.next + 1] ∧ o.blocks = h.next ∧
      KeptBlocks h h' [] (o.blocks :: [h.next + 1]) := by
  let h1 := h.alloc (List.replicate 1 (Slot.elem junk))
  let h2 := h1.alloc (List.replicate s (Slot.elem junk))
  have n1 : h1.next = h.next + 1 := Heap.next_alloc _
  have g2 : h2.get h.next = some [Slot.elem junk] := by
    show (Heap.alloc _ _).get _ = _
    rw [Heap.get_alloc, if_neg (by omega)]
    show (Heap.alloc _ _).get _ = _
    rw [Heap.get_alloc, if_pos rfl]; rfl
  have hw : h2.cell h.next 0 = some (Slot.elem junk) := by unfold Heap.cell; rw [g2]; rfl
  have hn3 : (h2.setCell h.next 0 (.addr h1.next)).next = h.next + 2 := by
    rw [Heap.next_setCell]
    show (Heap.alloc _ _).next = _
    rw [Heap.next_alloc, n1]
  have hg : ∀ b, b ≠ h.next → b ≠ h.next + 1 → (h2.setCell h.next 0 (.addr h1.next)).get b = h.get b := by
    intro b hb hb2
    rw [Heap.get_setCell_ne hb]
    show (Heap.alloc _ _).get _ = _
    rw [Heap.get_alloc, if_neg (by omega)]
    show (Heap.alloc _ _).get _ = _
    rw [Heap.get_alloc, if_neg hb]
  refine ⟨⟨h.next, 1, s, 0, []⟩, h2.setCell h.next 0 (.addr h1.next), ?_, ⟨?_, rfl, rfl, ?_, ?_, rfl, rfl, rfl⟩, rfl, ?_⟩
  · unfold PackedObj.new
    show M.bind _ _ h = _
    unfold M.bind
    simp only [M.newArr]
    show M.bind _ _ h1 = _
    unfold M.bind
    have : (M.loop 1 (fun i => do
        let a ← M.newArr s (.elem junk)
        M.wr h.next i (.addr a)) : M (Slot V) Unit) h1 = .ok () (h2.setCell h.next 0 (.addr h1.next)) := by
      show M.wr h.next 0 (.addr h1.next) h2 = _
      exact M.wr_run hw
    rw [this]
    rfl
  · rw [Heap.get_setCell_same g2, n1]; rfl
  · intro i row a er ea
    rcases i with _ | i
    · simp only [PackedSet.new, List.getElem?_cons_zero, Option.some.injEq] at er ea
      subst er; subst ea
      rw [Heap.get_setCell_ne (by omega)]
      show (Heap.alloc _ _).get _ = _
      rw [Heap.get_alloc, if_pos (by omega)]
      simp
    · simp at ea
  · simp
  · refine ⟨fun b hb _ => hg b (by omega) (by omega), ?_, fun _ hb => absurd hb List.not_mem_nil, ?_, by omega⟩
    · intro b hb
      simp only [List.mem_cons, List.not_mem_nil, or_false] at hb
      right; omega
    · intro b hb hs
      obtain ⟨l, e⟩ := Option.isSome_iff_exists.mp hs
      have := Heap.lt_next_of_get e
      rw [hn3] at this
      simp only [List.mem_cons, List.not_mem_nil, or_false]
      omega

end Boof
