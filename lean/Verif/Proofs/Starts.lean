import Verif.Proofs.Trace
import Verif.Proofs.Region
import Mathlib.Data.List.Perm.Subperm
import Mathlib.Data.List.Nodup
/-
Where the scan starts to trace, how many boundaries there are and how regions are numbered.
-/
namespace Boof

variable {e : Bool} {B : Pix → Bool} {w ht : Nat}

/-! ### Pixels of a traced boundary -/

theorem blk_mem {s : St} {n : Nat} {q : Pix} : q ∈ blk e B s n ↔ ∃ k < n, isBlk e B ((mu e B)^[k] s) = true ∧ ((mu e B)^[k] s).1 = q := by
  induction n with
  | zero => simp [blk]
  | succ n ih =>
    rw [blk, List.mem_append, ih]
    constructor
    · rintro (⟨k, h1, h2⟩ | hq)
      · exact ⟨k, by omega, h2⟩
      · split at hq
        · next hb => exact ⟨n, by omega, hb, (List.mem_singleton.1 hq).symm⟩
        · simp at hq
    · rintro ⟨k, h1, h2, h3⟩
      rcases Nat.lt_or_ge k n with h | h
      · exact Or.inl ⟨k, h, h2, h3⟩
      · have : k = n := by omega
        subst this
        right; rw [if_pos h2]; simp [h3]

theorem orb_lt (hB : InFrame w ht B) {s t : St} (hs : Good e B s) (ho : Orb e B s t) :
    ∃ k < Function.minimalPeriod (mu e B) s, (mu e B)^[k] s = t := by
  obtain ⟨k, rfl⟩ := ho
  exact ⟨k % Function.minimalPeriod (mu e B) s, Nat.mod_lt _ (per_pos hB hs), Function.iterate_mod_minimalPeriod_eq⟩

theorem stay {s : St} {k : Nat} (hw : ∀ i < k, isBlk e B ((mu e B)^[i] s) = false) : ((mu e B)^[k] s).1 = s.1 := by
  induction k with
  | zero => rfl
  | succ k ih =>
    rw [Function.iterate_succ_apply', ← ih (fun i hi => hw i (by omega))]
    have := hw k (by omega)
    generalize (mu e B)^[k] s = u at this
    unfold isBlk at this
    unfold mu
    rw [if_neg (by rw [this]; simp)]

theorem chain_mem (hB : InFrame w ht B) {s : St} (hs : Good e B s) {q : Pix} :
    q ∈ chain e B s ↔ ∃ j, Orb e B s (q, j) := by
  classical
  constructor
  · intro hq
    unfold chain at hq
    split at hq
    · rw [List.mem_singleton] at hq
      subst hq; exact ⟨s.2, Orb.refl s⟩
    · obtain ⟨k, -, -, h3⟩ := blk_mem.1 hq
      subst h3; exact ⟨_, k, rfl⟩
  · rintro ⟨j, ho⟩
    by_cases hex : ∃ k, isBlk e B ((mu e B)^[k] (q, j)) = true
    · have hk := Nat.find_spec hex
      have hst := stay (s := (q, j)) (k := Nat.find hex) (fun i hi => by
        have := Nat.find_min hex hi
        simpa using this)
      obtain ⟨k, k1, k2⟩ := orb_lt hB hs (ho.trans ⟨Nat.find hex, rfl⟩)
      have : q ∈ blk e B s (Function.minimalPeriod (mu e B) s) := blk_mem.2 ⟨k, k1, by rw [k2]; exact hk, by rw [k2]; exact hst⟩
      unfold chain
      split
      · next h0 => rw [h0] at this; simp at this
      · exact this
    · have hno : ∀ k, isBlk e B ((mu e B)^[k] (q, j)) = false := fun k => by
        have := fun hh => hex ⟨k, hh⟩
        simpa using this
      obtain ⟨m, hm⟩ := ho.symm hB hs
      have hs1 : s.1 = q := by rw [← hm]; exact stay (fun i _ => hno i)
      unfold chain
      rw [if_pos, List.mem_singleton, hs1]
      apply blk_white
      intro i _
      rw [← hm, ← Function.iterate_add_apply]
      exact hno _

theorem chain_length (hB : InFrame w ht B) {s : St} (hs : Good e B s) :
    (chain e B s).length ≤ Function.minimalPeriod (mu e B) s := by
  unfold chain
  split
  · exact per_pos hB hs
  · exact blk_length _ _

/-! ### Raster order as a list -/

/-- The pixels of the framed picture in raster order. -/
def raster (w ht : Nat) : List Pix := (List.range ht).flatMap (fun y => (List.range w).map (fun x => (x + 1, y + 1)))

/-- The pixels before `(j+1, k+1)`. -/
def before (w k j : Nat) : List Pix := raster w k ++ (List.range j).map (fun x => (x + 1, k + 1))

theorem mem_raster {p : Pix} : p ∈ raster w ht ↔ 1 ≤ p.1 ∧ p.1 ≤ w ∧ 1 ≤ p.2 ∧ p.2 ≤ ht := by
  obtain ⟨x, y⟩ := p
  simp only [raster, List.mem_flatMap, List.mem_range, List.mem_map, Prod.mk.injEq]
  constructor
  · rintro ⟨a, ha, b, hb, h1, h2⟩; omega
  · rintro ⟨h1, h2, h3, h4⟩; exact ⟨y - 1, by omega, x - 1, by omega, by omega, by omega⟩

theorem raster_length (w ht : Nat) : (raster w ht).length = w * ht := by
  induction ht with
  | zero => rfl
  | succ n ih =>
    have : raster w (n + 1) = raster w n ++ (List.range w).map (fun x => (x + 1, n + 1)) := by
      simp [raster, List.range_succ]
    rw [this, List.length_append, ih]; simp [Nat.mul_succ]

theorem before_zero (w : Nat) : before w 0 0 = [] := rfl
theorem before_row (w k : Nat) : before w k w = before w (k + 1) 0 := by simp [before, raster, List.range_succ]
theorem before_succ (w k j : Nat) : before w k (j + 1) = before w k j ++ [(j + 1, k + 1)] := by
  simp [before, List.range_succ]
theorem before_last (w ht : Nat) : before w ht 0 = raster w ht := by simp [before]

theorem range_split {k n : Nat} (h : k < n) : ∃ r, List.range n = List.range k ++ k :: r := by
  refine ⟨(List.range (n - k - 1)).map (fun i => k + (i + 1)), ?_⟩
  have : n = k + (n - k - 1 + 1) := by omega
  conv => lhs; rw [this, List.range_add, List.range_succ_eq_map]
  simp

theorem before_split {k j : Nat} (hk : k < ht) (hj : j < w) :
    ∃ post, raster w ht = before w k j ++ (j + 1, k + 1) :: post := by
  obtain ⟨r, hr⟩ := range_split hk
  obtain ⟨s, hs⟩ := range_split hj
  refine ⟨s.map (fun x => (x + 1, k + 1)) ++ r.flatMap (fun y => (List.range w).map (fun x => (x + 1, y + 1))), ?_⟩
  unfold raster before
  rw [hr, List.flatMap_append, List.flatMap_cons]
  conv => lhs; rw [hs]
  simp [raster, hs]

theorem mem_before {k j : Nat} (hj : j ≤ w) {q : Pix} :
    q ∈ before w k j ↔ (1 ≤ q.1 ∧ q.1 ≤ w ∧ 1 ≤ q.2) ∧ Bef q (j + 1, k + 1) := by
  obtain ⟨x, y⟩ := q
  simp only [before, List.mem_append, mem_raster, List.mem_map, List.mem_range, Prod.mk.injEq, Bef]
  constructor
  · rintro (h | ⟨a, h1, h2, h3⟩) <;> omega
  · rintro ⟨h1, h2 | h2⟩
    · left; omega
    · right; exact ⟨x - 1, by omega, by omega, by omega⟩

theorem raster_pairwise (w ht : Nat) : (raster w ht).Pairwise Bef := by
  induction ht with
  | zero => exact List.Pairwise.nil
  | succ n ih =>
    have : raster w (n + 1) = raster w n ++ (List.range w).map (fun x => (x + 1, n + 1)) := by
      simp [raster, List.range_succ]
    rw [this, List.pairwise_append]
    refine ⟨ih, ?_, ?_⟩
    · rw [List.pairwise_map]
      refine List.pairwise_lt_range.imp ?_
      intro a b hab
      exact Or.inr ⟨rfl, by simpa using hab⟩
    · intro a ha b hb
      rw [mem_raster] at ha
      obtain ⟨x, -, rfl⟩ := List.mem_map.1 hb
      exact Or.inl (show a.2 < n + 1 by omega)

/-! ### Counting boundaries -/

/-- The states of the boundary of `s`. -/
noncomputable def cycle (e : Bool) (B : Pix → Bool) (s : St) : List St :=
  (List.range (Function.minimalPeriod (mu e B) s)).map (fun k => (mu e B)^[k] s)

theorem mem_cycle (hB : InFrame w ht B) {s t : St} (hs : Good e B s) : t ∈ cycle e B s ↔ Orb e B s t := by
  unfold cycle
  rw [List.mem_map]
  constructor
  · rintro ⟨k, -, rfl⟩; exact ⟨k, rfl⟩
  · intro ho
    obtain ⟨k, k1, k2⟩ := orb_lt hB hs ho
    exact ⟨k, List.mem_range.2 k1, k2⟩

theorem cycle_nodup (s : St) : (cycle e B s).Nodup := by
  refine List.Nodup.map_on ?_ List.nodup_range
  intro a ha b hb hab
  exact (Function.iterate_eq_iterate_iff_of_lt_minimalPeriod (List.mem_range.1 ha) (List.mem_range.1 hb)).1 hab

theorem cycles_length (hB : InFrame w ht B) {S : List St} (hg : ∀ s ∈ S, Good e B s)
    (hp : S.Pairwise (fun a b => ¬Orb e B a b)) :
    (S.map (fun s => Function.minimalPeriod (mu e B) s)).sum ≤ 8 * (w * ht) := by
  have nd : (S.flatMap (cycle e B)).Nodup := by
    rw [List.nodup_flatMap]
    refine ⟨fun s _ => cycle_nodup s, ?_⟩
    refine (List.Pairwise.and_mem.1 hp).imp ?_
    rintro a b ⟨ha, hb, hab⟩ u hu hv
    rw [mem_cycle hB (hg a ha)] at hu
    rw [mem_cycle hB (hg b hb)] at hv
    exact hab (hu.trans (hv.symm hB (hg b hb)))
  have sub : S.flatMap (cycle e B) ⊆ (raster w ht).flatMap (fun p => (List.range 8).map (fun j => (p, j))) := by
    intro u hu
    obtain ⟨s, hs, hu⟩ := List.mem_flatMap.1 hu
    have hgu := ((mem_cycle hB (hg s hs)).1 hu).good (hg s hs)
    obtain ⟨h1, h2, h3, h4⟩ := hB _ hgu.1
    have := good_bound hB hgu
    exact List.mem_flatMap.2 ⟨u.1, mem_raster.2 ⟨h1, h3, h2, h4⟩, List.mem_map.2 ⟨u.2, List.mem_range.2 this.2.2, rfl⟩⟩
  have le := (nd.subperm sub).length_le
  have l1 : (S.flatMap (cycle e B)).length = (S.map (fun s => Function.minimalPeriod (mu e B) s)).sum := by
    rw [List.length_flatMap]
    congr 1
    apply List.map_congr_left
    intro s _; simp [cycle]
  have l2 : ((raster w ht).flatMap (fun p => (List.range 8).map (fun j => (p, j)))).length = 8 * (w * ht) := by
    rw [List.length_flatMap]
    simp [raster_length, Nat.mul_comm]
  omega

/-! ### Numbers of regions -/

open Classical in
/-- Number of the region of `p`: how many regions start no later than this one does. -/
noncomputable def idOf (e : Bool) (B : Pix → Bool) (w ht : Nat) (p : Pix) : Nat :=
  ((raster w ht).filter (fun q => decide (IsFirst e B q ∧ ∀ p0, IsFirst e B p0 → Conn e B p0 p → ¬Bef p0 q))).length

open Classical in
/-- The first pixels in a list. -/
noncomputable def firsts (e : Bool) (B : Pix → Bool) (l : List Pix) : List Pix := l.filter (fun q => decide (IsFirst e B q))

theorem idOf_conn (hB : InFrame w ht B) {p q : Pix} (hc : Conn e B p q) : idOf e B w ht p = idOf e B w ht q := by
  unfold idOf
  congr 1
  apply List.filter_congr
  intro r _
  have : (∀ p0, IsFirst e B p0 → Conn e B p0 p → ¬Bef p0 r) ↔ (∀ p0, IsFirst e B p0 → Conn e B p0 q → ¬Bef p0 r) :=
    ⟨fun h p0 a b => h p0 a (b.trans (hc.symm hB)), fun h p0 a b => h p0 a (b.trans hc)⟩
  exact decide_eq_decide.2 (by rw [this])

theorem first_mem (hB : InFrame w ht B) {p : Pix} (hp : IsFirst e B p) : p ∈ raster w ht := by
  obtain ⟨h1, h2, h3, h4⟩ := hB p hp.1
  exact mem_raster.2 ⟨h1, h3, h2, h4⟩

theorem split_order {pre post : List Pix} {p : Pix} (hs : raster w ht = pre ++ p :: post) :
    (∀ q ∈ pre, Bef q p) ∧ (∀ q ∈ post, Bef p q) := by
  have := raster_pairwise w ht
  rw [hs, List.pairwise_append, List.pairwise_cons] at this
  exact ⟨fun q hq => this.2.2 q hq p (List.mem_cons_self ..), this.2.1.1⟩

theorem idOf_first (hB : InFrame w ht B) {pre post : List Pix} {p : Pix} (hs : raster w ht = pre ++ p :: post)
    (hp : IsFirst e B p) : idOf e B w ht p = (firsts e B pre).length + 1 := by
  classical
  obtain ⟨o1, o2⟩ := split_order hs
  have key : ∀ q, (∀ p0, IsFirst e B p0 → Conn e B p0 p → ¬Bef p0 q) ↔ ¬Bef p q := by
    intro q
    constructor
    · intro h; exact h p hp (.refl hp.1)
    · intro h p0 a b
      rw [a.unique hB hp b]; exact h
  unfold idOf firsts
  rw [hs, List.filter_append, List.filter_cons, List.length_append]
  have e1 : pre.filter (fun q => decide (IsFirst e B q ∧ ∀ p0, IsFirst e B p0 → Conn e B p0 p → ¬Bef p0 q)) =
      pre.filter (fun q => decide (IsFirst e B q)) := by
    apply List.filter_congr
    intro q hq
    rw [key]
    have : ¬Bef p q := fun hb => Bef.irrefl (hb.trans (o1 q hq))
    simp [this]
  have e2 : post.filter (fun q => decide (IsFirst e B q ∧ ∀ p0, IsFirst e B p0 → Conn e B p0 p → ¬Bef p0 q)) = [] := by
    rw [List.filter_eq_nil_iff]
    intro q hq
    rw [key]
    simp [o2 q hq]
  rw [e1, e2, if_pos]
  · rfl
  · rw [key]; simp [hp, Bef.irrefl]

theorem firsts_le (l : List Pix) : (firsts e B l).length ≤ l.length := List.length_filter_le _ _

theorem idOf_le (hB : InFrame w ht B) {pre post : List Pix} {p p0 : Pix} (hs : raster w ht = pre ++ post)
    (h0 : IsFirst e B p0) (hc : Conn e B p0 p) (hm : p0 ∈ pre) : idOf e B w ht p ≤ (firsts e B pre).length := by
  rw [← idOf_conn hB hc]
  obtain ⟨a, b, rfl⟩ := List.append_of_mem hm
  rw [idOf_first hB (pre := a) (post := b ++ post) (by rw [hs]; simp) h0]
  classical
  unfold firsts
  rw [List.filter_append, List.filter_cons, if_pos (by simpa using h0)]
  simp

theorem idOf_pos (hB : InFrame w ht B) {p : Pix} (hp : B p = true) : 1 ≤ idOf e B w ht p := by
  obtain ⟨p0, h0, hc⟩ := exists_first (e := e) hB hp
  rw [← idOf_conn hB hc]
  obtain ⟨a, b, hs⟩ := List.append_of_mem (first_mem hB h0)
  rw [idOf_first hB hs h0]; omega

theorem idOf_inj (hB : InFrame w ht B) {p q : Pix} (hp : B p = true) (hq : B q = true)
    (h : idOf e B w ht p = idOf e B w ht q) : Conn e B p q := by
  obtain ⟨p0, hp0, hcp⟩ := exists_first (e := e) hB hp
  obtain ⟨q0, hq0, hcq⟩ := exists_first (e := e) hB hq
  have main : ∀ {a b a0 b0 : Pix}, IsFirst e B a0 → Conn e B a0 a → IsFirst e B b0 → Conn e B b0 b → Bef a0 b0 →
      idOf e B w ht a ≠ idOf e B w ht b := by
    intro a b a0 b0 ha hca hb hcb hab
    obtain ⟨s, t, hs⟩ := List.append_of_mem (first_mem hB hb)
    have : a0 ∈ s := by
      have hm := first_mem hB ha
      rw [hs, List.mem_append, List.mem_cons] at hm
      rcases hm with hm | hm | hm
      · exact hm
      · rw [hm] at hab; exact absurd hab Bef.irrefl
      · exact absurd (hab.trans ((split_order hs).2 _ hm)) Bef.irrefl
    have h1 := idOf_le hB hs ha hca this
    have h2 := idOf_first hB hs hb
    rw [idOf_conn hB hcb] at h2
    omega
  rcases Bef.total p0 q0 with hh | hh | hh
  · exact absurd h (main hp0 hcp hq0 hcq hh)
  · subst hh; exact (hcp.symm hB).trans hcq
  · exact absurd h.symm (main hq0 hcq hp0 hcp hh)

/-! ### Starts -/

/-- The lower side of `p` is where the scan starts to trace an internal contour. -/
def IsHole (e : Bool) (B : Pix → Bool) (p : Pix) : Prop :=
  B p = true ∧ B (nbA p 1) = false ∧ ¬Trd e B (fun q => q = p ∨ Bef q p) (fun q => Bef q p) (p, ax e 1)

open Classical in
/-- The contours started at `p`; `true` for an external one. -/
noncomputable def startsAt (e : Bool) (B : Pix → Bool) (p : Pix) : List (Pix × Bool) :=
  (if IsFirst e B p then [(p, true)] else []) ++ (if IsHole e B p then [(p, false)] else [])

/-- The contours started at the pixels of a list. -/
noncomputable def starts (e : Bool) (B : Pix → Bool) (l : List Pix) : List (Pix × Bool) := l.flatMap (startsAt e B)

/-- The state from which the tracing starts. -/
def startSt (e : Bool) (s : Pix × Bool) : St := (s.1, ax e (startAx s.2))

theorem starts_count (l : List Pix) : (starts e B l).countP (fun s => s.2) = (firsts e B l).length := by
  classical
  induction l with
  | nil => rfl
  | cons p l ih =>
    unfold starts firsts at *
    rw [List.flatMap_cons, List.countP_append, ih, List.filter_cons]
    unfold startsAt
    by_cases h1 : IsFirst e B p <;> by_cases h2 : IsHole e B p <;> simp [h1, h2] <;> omega

/-! ### The list of contours -/

/-- The contours when the sets of points belong to contours as in the list: number of the region and whether the contour
is external. -/
def book (tags : List (Nat × Bool)) : List ContourPacked :=
  (List.range (tags.countP (fun s => s.2))).map (fun k =>
    { id := k + 1, externalIndex := tags.idxOf (k + 1, true),
      internalIndexes := (List.range tags.length).filter (fun i => decide (tags[i]? = some (k + 1, false))) })

theorem book_length (tags : List (Nat × Bool)) : (book tags).length = tags.countP (fun s => s.2) := by simp [book]

theorem internal_append (tags : List (Nat × Bool)) (x : Nat × Bool) (k : Nat) :
    (List.range (tags ++ [x]).length).filter (fun i => decide ((tags ++ [x])[i]? = some (k, false))) =
    (List.range tags.length).filter (fun i => decide (tags[i]? = some (k, false))) ++
      (if x = (k, false) then [tags.length] else []) := by
  rw [List.length_append, List.length_singleton, List.range_succ, List.filter_append]
  congr 1
  · apply List.filter_congr
    intro i hi
    rw [List.getElem?_append_left (List.mem_range.1 hi)]
  · rw [List.filter_cons]
    simp

theorem book_ext {tags : List (Nat × Bool)} {n : Nat} (hn : tags.countP (fun s => s.2) = n)
    (ha : ∀ k < n, (k + 1, true) ∈ tags) (hb : ∀ b, (n + 1, b) ∉ tags) :
    book (tags ++ [(n + 1, true)]) = book tags ++ [{ id := n + 1, externalIndex := tags.length, internalIndexes := [] }] := by
  unfold book
  rw [List.countP_append, hn]
  simp only [List.countP_singleton, if_true]
  rw [List.range_succ, List.map_append]
  congr 1
  · apply List.map_congr_left
    intro k hk
    rw [internal_append, List.idxOf_append_of_mem (ha k (List.mem_range.1 hk))]
    simp
  · simp only [List.map_cons, List.map_nil]
    rw [internal_append, List.idxOf_append_of_notMem (hb true)]
    simp
    intro a _ hc
    exact hb false (List.mem_of_getElem? hc)

theorem book_int {tags : List (Nat × Bool)} {k : Nat} (hk : k < tags.countP (fun s => s.2))
    (ha : ∀ k < tags.countP (fun s => s.2), (k + 1, true) ∈ tags) :
    ∃ c, (book tags)[k]? = some c ∧
      book (tags ++ [(k + 1, false)]) = (book tags).set k { c with internalIndexes := c.internalIndexes ++ [tags.length] } := by
  have hl : k < (book tags).length := by rw [book_length]; exact hk
  refine ⟨(book tags)[k], List.getElem?_eq_getElem hl, ?_⟩
  have hc : (tags ++ [(k + 1, false)]).countP (fun s => s.2) = tags.countP (fun s => s.2) := by
    rw [List.countP_append]; simp
  apply List.ext_getElem
  · rw [List.length_set, book_length, book_length, hc]
  · intro i h1 h2
    have hi : i < tags.countP (fun s => s.2) := by rw [book_length, hc] at h1; exact h1
    rw [List.getElem_set]
    split
    · next hki =>
      subst hki
      simp only [book, List.getElem_map, List.getElem_range]
      rw [internal_append, List.idxOf_append_of_mem (ha k hk)]
      simp
    · next hki =>
      simp only [book, List.getElem_map, List.getElem_range]
      rw [internal_append, List.idxOf_append_of_mem (ha i hi), if_neg (by simp; omega), List.append_nil]

end Boof
