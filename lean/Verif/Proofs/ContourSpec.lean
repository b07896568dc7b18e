import Verif.Proofs.Process
import Verif.Proofs.Boundary
/-
From the results of `process` in terms of boundary orbits to the specification vocabulary.
-/
namespace Boof
variable {e : Bool} {B : Pix → Bool} {w ht : Nat}

/-- Two sides on one orbit border the same background region. -/
theorem side_linked (hB : InFrame w ht B) {p : Pix} {a : Nat} (hp : B p = true) (ha : a < 4) (hq : B (nbA p a) = false) {r : Pix} {b : Nat}
    (hb : b < 4) (hqr : B (nbA r b) = false) (ho : Orb e B (p, ax e a) (r, ax e b)) :
    Linked (rl e).dual (IsW B) (nbA p a) (nbA r b) := by
  have hq' : IsW B (nbA p a) := by simp [hq]
  have hqr' : IsW B (nbA r b) := by simp [hqr]
  have hr : B r = true := (ho.good (good_ax hp ha)).1
  obtain ⟨r1, r2, -⟩ := hB r hr
  cases e
  · have hW : ∀ q q', Linked .eight (IsW B) (nbA p a) q → Adjacent .eight q q' → IsW B q' → Linked .eight (IsW B) (nbA p a) q' :=
      fun q q' h1 h2 h3 => h1.step h2 h3
    have hJ : J4 B (Linked .eight (IsW B) (nbA p a)) (r, ax false b) := by
      obtain ⟨k, hk⟩ := ho
      rw [← hk]
      clear hk
      induction k with
      | zero => exact J4.start hB hW hp ha hq' (.refl hq')
      | succ k ih => rw [Function.iterate_succ_apply']; exact ih.mu hB hW (iter_good (good_ax hp ha) k)
    exact hJ.2 _ (by simp [ax]) hqr'
  · have hW : ∀ q q', Linked .four (IsW B) (nbA p a) q → Adjacent .four q q' → IsW B q' → Linked .four (IsW B) (nbA p a) q' :=
      fun q q' h1 h2 h3 => h1.step h2 h3
    have hJ : J8 B (Linked .four (IsW B) (nbA p a)) (r, ax true b) := by
      obtain ⟨k, hk⟩ := ho
      rw [← hk]
      clear hk
      induction k with
      | zero => exact J8.start hB hW hp ha (.refl hq')
      | succ k ih => rw [Function.iterate_succ_apply']; exact ih.mu hB (fun q hl => hl.right) hW (iter_good (good_ax hp ha) k)
    have ej : ((b + 3) % 4 + 1) % 4 = b := by omega
    obtain ⟨-, a2, -⟩ := geo_adj (p := r) (a := (b + 3) % 4) r1 r2 (by omega)
    rw [ej] at a2
    unfold J8 at hJ
    simp only [show ax true b = 2 * b from rfl] at hJ
    rw [if_neg (by omega), show 2 * b / 2 = b by omega] at hJ
    rcases hJ with ⟨x, -⟩ | ⟨-, x⟩
    · exact hW _ _ x a2 hqr'
    · exact x

/-- The side at which a boundary is started. -/
def sideOf (s : Pix × Bool) : Pix × Pix := (s.1, startWhite s.1 s.2)

theorem startWhite_eq (p : Pix) (x : Bool) : startWhite p x = nbA p (startAx x) := by cases x <;> rfl

/-- The sides at which the boundaries are started are one for each boundary. -/
theorem sides_one (hB : InFrame w ht B)
    (ho : ((starts e B (raster w ht)).map (startSt e)).Pairwise (fun a b => ¬Orb e B a b)) :
    OnePerBoundary (rl e) (IsB B) ((starts e B (raster w ht)).map sideOf) := by
  refine ⟨?_, ?_, ?_⟩
  · intro s hs
    obtain ⟨s, hs', rfl⟩ := List.mem_map.1 hs
    obtain ⟨h1, h2⟩ := starts_side hB hs'
    obtain ⟨p1, p2, -⟩ := hB _ h1
    refine ⟨h1, ?_, ?_⟩
    · show ¬B (startWhite s.1 s.2) = true
      rw [startWhite_eq, h2]; simp
    · show Adjacent .four s.1 (startWhite s.1 s.2)
      rw [startWhite_eq]
      exact (adj4_iff p1 p2).2 ⟨_, startAx_lt _, rfl⟩
  · rw [List.pairwise_map] at ho ⊢
    refine (List.Pairwise.and_mem.1 ho).imp ?_
    rintro s t ⟨hs, ht', hn⟩ ⟨hl, hw⟩
    obtain ⟨h1, h2⟩ := starts_side hB hs
    obtain ⟨h3, h4⟩ := starts_side hB ht'
    refine hn ?_
    change Linked (rl e).dual (IsW B) (startWhite s.1 s.2) (startWhite t.1 t.2) at hw
    rw [startWhite_eq, startWhite_eq] at hw
    exact one_orbit hB (startAx_lt _) (startAx_lt _) h2 h4 ((conn_iff hB).2 hl) hw
  · rintro p q ⟨hp, hq, hadj⟩
    obtain ⟨p1, p2, -⟩ := hB _ hp
    obtain ⟨a, ha, rfl⟩ := (adj4_iff p1 p2).1 hadj
    have hq' : B (nbA p a) = false := by simpa using hq
    obtain ⟨s, hs, hor⟩ := crack_started (e := e) hB hp ha hq'
    obtain ⟨h1, h2⟩ := starts_side hB hs
    refine ⟨_, List.mem_map.2 ⟨s, hs, rfl⟩, (conn_iff hB).1 (hor.conn (good_ax h1 (startAx_lt _))), ?_⟩
    show Linked (rl e).dual (IsW B) (startWhite s.1 s.2) (nbA p a)
    rw [startWhite_eq]
    exact side_linked hB h1 (startAx_lt _) h2 ha hq' hor

/-- The chain of a side goes around its boundary. -/
theorem chain_around (hB : InFrame w ht B) {p : Pix} {x : Bool} (hp : B p = true) (hq : B (nbA p (startAx x)) = false) :
    Around (rl e) (IsB B) (p, startWhite p x) (chain e B (p, ax e (startAx x))) := by
  have hg := good_ax (e := e) hp (startAx_lt x)
  refine ⟨chain_path hB hg, ?_, fun i j hi hj he => chain_once hB hg hi hj he⟩
  intro q
  rw [chain_faces hB hp (startAx_lt x) hq, conn_iff hB]
  unfold OnBoundary
  rw [startWhite_eq]

/-! ### Numbers -/

theorem filter_split {α : Type} (P : α → Bool) (l : List α) (i : Nat) (hi : i < (l.filter P).length) :
    ∃ pre x post, l = pre ++ x :: post ∧ P x = true ∧ (pre.filter P).length = i := by
  induction l generalizing i with
  | nil => simp at hi
  | cons a l ih =>
    by_cases ha : P a = true
    · rw [List.filter_cons_of_pos ha] at hi
      cases i with
      | zero => exact ⟨[], a, l, rfl, ha, rfl⟩
      | succ i =>
        obtain ⟨pre, x, post, h1, h2, h3⟩ := ih i (by simpa using hi)
        exact ⟨a :: pre, x, post, by rw [h1]; rfl, h2, by rw [List.filter_cons_of_pos ha]; simp [h3]⟩
    · rw [List.filter_cons_of_neg ha] at hi
      obtain ⟨pre, x, post, h1, h2, h3⟩ := ih i hi
      exact ⟨a :: pre, x, post, by rw [h1]; rfl, h2, by rw [List.filter_cons_of_neg ha]; exact h3⟩

theorem idOf_onto (hB : InFrame w ht B) {k : Nat} (hk : k < (firsts e B (raster w ht)).length) :
    ∃ p, IsFirst e B p ∧ idOf e B w ht p = k + 1 := by
  classical
  obtain ⟨pre, p, post, h1, h2, h3⟩ := filter_split (fun q => decide (IsFirst e B q)) (raster w ht) k (by
    unfold firsts at hk
    convert hk)
  have hp : IsFirst e B p := of_decide_eq_true h2
  refine ⟨p, hp, ?_⟩
  rw [idOf_first hB h1 hp]
  unfold firsts
  congr 1

theorem idOf_le_all (hB : InFrame w ht B) {p : Pix} (hp : B p = true) : idOf e B w ht p ≤ (firsts e B (raster w ht)).length := by
  obtain ⟨p0, h0, hc⟩ := exists_first (e := e) hB hp
  exact idOf_le hB (post := []) (by simp) h0 hc (first_mem hB h0)

theorem idOf_before (hB : InFrame w ht B) {p q : Pix} (hp : IsFirst e B p) (hq : IsFirst e B q) :
    idOf e B w ht p < idOf e B w ht q ↔ Before p q := by
  have main : ∀ {p q : Pix}, IsFirst e B p → IsFirst e B q → Bef p q → idOf e B w ht p < idOf e B w ht q := by
    intro p q hp hq hb
    obtain ⟨s, t, hs⟩ := List.append_of_mem (first_mem hB hq)
    have hm : p ∈ s := by
      have hm := first_mem hB hp
      rw [hs, List.mem_append, List.mem_cons] at hm
      rcases hm with hm | hm | hm
      · exact hm
      · rw [hm] at hb; exact absurd hb Bef.irrefl
      · exact absurd (hb.trans ((split_order hs).2 _ hm)) Bef.irrefl
    have h1 := idOf_le hB hs hp (.refl hp.1) hm
    rw [idOf_first hB hs hq]; omega
  constructor
  · intro h
    rcases Bef.total p q with hh | hh | hh
    · exact hh
    · subst hh; omega
    · have := main hq hp hh; omega
  · exact main hp hq

/-! ### Bookkeeping -/

/-- When the external tags are `(1,true)`, ..., `(n,true)` and each occurs once, the sets are distributed over the
contours. -/
theorem book_perm {tags : List (Nat × Bool)} {n : Nat} (hn : tags.countP (fun s => s.2) = n)
    (hA : ∀ k < n, (k + 1, true) ∈ tags) (hid : ∀ t ∈ tags, 1 ≤ t.1 ∧ t.1 ≤ n)
    (hU : ∀ (i j k : Nat), tags[i]? = some (k, true) → tags[j]? = some (k, true) → i = j) :
    ((book tags).flatMap (fun c => c.externalIndex :: c.internalIndexes)).Perm (List.range tags.length) := by
  have he : ∀ k < n, tags[tags.idxOf (k + 1, true)]? = some (k + 1, true) := by
    intro k hk
    have := List.idxOf_lt_length_of_mem (hA k hk)
    rw [List.getElem?_eq_getElem this, List.getElem_idxOf this]
  have hmem : ∀ k < n, ∀ i, i ∈ tags.idxOf (k + 1, true) :: (List.range tags.length).filter
      (fun i => decide (tags[i]? = some (k + 1, false))) ↔ ∃ b, tags[i]? = some (k + 1, b) := by
    intro k hk i
    rw [List.mem_cons, List.mem_filter, List.mem_range]
    constructor
    · rintro (rfl | ⟨-, h⟩)
      · exact ⟨true, he k hk⟩
      · exact ⟨false, of_decide_eq_true h⟩
    · rintro ⟨b, hb⟩
      cases b
      · exact Or.inr ⟨(List.getElem?_eq_some_iff.1 hb).1, decide_eq_true hb⟩
      · exact Or.inl (hU _ _ _ hb (he k hk))
  rw [List.perm_ext_iff_of_nodup ?_ List.nodup_range]
  · intro i
    rw [List.mem_flatMap, List.mem_range]
    constructor
    · rintro ⟨c, hc, hi⟩
      unfold book at hc
      obtain ⟨k, hk, rfl⟩ := List.mem_map.1 hc
      rw [List.mem_range, hn] at hk
      obtain ⟨b, hb⟩ := (hmem k hk i).1 hi
      exact (List.getElem?_eq_some_iff.1 hb).1
    · intro hi
      obtain ⟨h1, h2⟩ := hid tags[i] (List.getElem_mem hi)
      have hlt : tags[i].1 - 1 < n := by omega
      refine ⟨_, List.mem_map.2 ⟨tags[i].1 - 1, List.mem_range.2 (by rw [hn]; exact hlt), rfl⟩, (hmem _ hlt i).2 ⟨tags[i].2, ?_⟩⟩
      rw [List.getElem?_eq_getElem hi, Nat.sub_add_cancel h1]
  · rw [List.nodup_flatMap]
    unfold book
    constructor
    · intro c hc
      obtain ⟨k, hk, rfl⟩ := List.mem_map.1 hc
      rw [List.mem_range, hn] at hk
      refine List.nodup_cons.2 ⟨?_, List.nodup_range.filter _⟩
      intro hm
      have := of_decide_eq_true (List.mem_filter.1 hm).2
      rw [he k hk] at this
      simp at this
    · rw [List.pairwise_map]
      refine (List.Pairwise.and_mem.1 List.pairwise_lt_range).imp ?_
      rintro a b ⟨ha, hb, hab⟩ i hi hj
      rw [List.mem_range, hn] at ha hb
      obtain ⟨x, hx⟩ := (hmem a ha i).1 hi
      obtain ⟨y, hy⟩ := (hmem b hb i).1 hj
      rw [hx] at hy
      simp only [Option.some.injEq, Prod.mk.injEq] at hy
      omega

/-- The tags of the starts of a picture. -/
theorem tags_facts (hB : InFrame w ht B)
    (ho : ((starts e B (raster w ht)).map (startSt e)).Pairwise (fun a b => ¬Orb e B a b)) :
    let tags := (starts e B (raster w ht)).map (fun s => (idOf e B w ht s.1, s.2))
    tags.countP (fun s => s.2) = (firsts e B (raster w ht)).length ∧
    (∀ k < (firsts e B (raster w ht)).length, (k + 1, true) ∈ tags) ∧
    (∀ t ∈ tags, 1 ≤ t.1 ∧ t.1 ≤ (firsts e B (raster w ht)).length) ∧
    (∀ (i j k : Nat), tags[i]? = some (k, true) → tags[j]? = some (k, true) → i = j) := by
  intro tags
  refine ⟨?_, ?_, ?_, ?_⟩
  · rw [List.countP_map]
    exact starts_count _
  · intro k hk
    obtain ⟨p, hp, hid⟩ := idOf_onto hB hk
    exact List.mem_map.2 ⟨(p, true), starts_mem.2 ⟨first_mem hB hp, Or.inl ⟨rfl, hp⟩⟩, by rw [hid]⟩
  · intro t ht'
    obtain ⟨s, hs, rfl⟩ := List.mem_map.1 ht'
    have := (starts_side hB hs).1
    exact ⟨idOf_pos hB this, idOf_le_all hB this⟩
  · intro i j k hi hj
    simp only [tags, List.getElem?_map, Option.map_eq_some_iff, Prod.mk.injEq] at hi hj
    obtain ⟨s, hs, hs1, hs2⟩ := hi
    obtain ⟨t, ht', ht1, ht2⟩ := hj
    have fs : ∀ {s : Pix × Bool} {i : Nat}, (starts e B (raster w ht))[i]? = some s → s.2 = true → IsFirst e B s.1 := by
      intro s i hs h2
      obtain ⟨-, ⟨-, h⟩ | ⟨h, -⟩⟩ := starts_mem.1 (List.mem_of_getElem? hs)
      · exact h
      · rw [h2] at h; cases h
    have f1 := fs hs hs2
    have f2 := fs ht' ht2
    have hst : s = t := Prod.ext (f1.unique hB f2 (idOf_inj hB f1.1 f2.1 (by rw [hs1, ht1]))) (by rw [hs2, ht2])
    subst hst
    obtain ⟨li, gi⟩ := List.getElem?_eq_some_iff.1 hs
    obtain ⟨lj, gj⟩ := List.getElem?_eq_some_iff.1 ht'
    rw [List.pairwise_map, List.pairwise_iff_getElem] at ho
    rcases Nat.lt_trichotomy i j with h | h | h
    · have := ho i j li lj h
      rw [gi, gj] at this
      exact absurd (Orb.refl _) this
    · exact h
    · have := ho j i lj li h
      rw [gi, gj] at this
      exact absurd (Orb.refl _) this

end Boof
