import Verif.Spec.Planar
import Verif.Proofs.ImageOps
import Verif.Proofs.Interleaved
import Verif.Proofs.World
namespace Boof
variable {V : Type}
open M

theorem Heap.live_lt {h : Heap V} {b : Nat} (e : (h.get b).isSome) : b < h.next := by
  rcases Nat.lt_or_ge b h.next with c | c
  · exact c
  · exact absurd e (Heap.not_live c)

/-- Bands as a list: each of them valid, owning and of size `w × ht`, no two on one array. -/
structure BandsOk (h : Heap V) (w ht : Nat) (bs : List Gray) : Prop where
  each : ∀ g ∈ bs, g.Valid h ∧ g.subimage = false ∧ g.width = w ∧ g.height = ht
  apart : (bs.map Gray.buf).Nodup

theorem BandsOk.planar {h : Heap V} {p : Planar} : p.Valid h ↔ BandsOk h p.width p.height p.bands ∧ p.subimage = false := by
  constructor
  · intro hv
    refine ⟨⟨fun g hg => ?_, ?_⟩, hv.own⟩
    · obtain ⟨i, e⟩ := List.mem_iff_getElem?.mp hg
      exact hv.band i g e
    · rw [List.Nodup, List.pairwise_map, List.pairwise_iff_getElem]
      intro i j hi hj hij
      exact hv.apart i j _ _ (by omega) (List.getElem?_eq_getElem hi) (List.getElem?_eq_getElem hj)
  · rintro ⟨⟨h1, h2⟩, h3⟩
    refine ⟨fun i g e => h1 g (List.mem_of_getElem? e), ?_, h3⟩
    rw [List.Nodup, List.pairwise_map, List.pairwise_iff_getElem] at h2
    intro i j a b hij ea eb
    obtain ⟨hi, ea⟩ := List.getElem?_eq_some_iff.mp ea
    obtain ⟨hj, eb⟩ := List.getElem?_eq_some_iff.mp eb
    subst ea eb
    rcases Nat.lt_or_ge i j with c | c
    · exact h2 i j hi hj c
    · exact (h2 j i hj hi (by omega)).symm

theorem Planar.uses_iff {p : Planar} {b : Nat} : p.Uses b ↔ b ∈ p.bands.map Gray.buf := by
  constructor
  · rintro ⟨i, g, e, rfl⟩
    exact List.mem_map_of_mem (List.mem_of_getElem? e)
  · intro hb
    obtain ⟨g, hg, rfl⟩ := List.mem_map.mp hb
    obtain ⟨i, e⟩ := List.mem_iff_getElem?.mp hg
    exact ⟨i, g, e, rfl⟩

theorem newBands_run (z : V) {w ht : Nat} (hw : w < P32) (hh : ht < P32) (ha : w * ht < P32) (n : Nat) (h : Heap V) :
    ∃ bs h', Planar.newBands z w ht n h = .ok bs h' ∧ bs.length = n ∧ BandsOk h' w ht bs ∧
      (∀ g ∈ bs, h.next ≤ g.buf ∧ g.Shows h' (fun _ _ => z)) ∧ h'.next = h.next + n ∧
      (∀ b i, b < h.next → h'.cell b i = h.cell b i) ∧ (∀ b, b < h.next → (h'.get b).isSome = (h.get b).isSome) ∧
      (∀ b, h.next ≤ b → (h'.get b).isSome → b ∈ bs.map Gray.buf) := by
  induction n with
  | zero => exact ⟨[], h, rfl, rfl, ⟨nofun, List.nodup_nil⟩, nofun, rfl, fun _ _ _ => rfl, fun _ _ => rfl,
      fun b hb e => absurd e (Heap.not_live hb)⟩
  | succ n ih =>
    obtain ⟨bs, h1, e, el, ok, hg, en, hf, hal, hfr⟩ := ih
    obtain ⟨g, e2, eb, e3, e4, e5, hv, ed⟩ := new_spec z h1 hw hh ha
    have hlt : ∀ a ∈ bs, a.buf < h1.next := fun a ha => (ok.each a ha).1.lt_next
    have cell : ∀ b i, b < h1.next → (h1.alloc (List.replicate (w*ht) z)).cell b i = h1.cell b i := fun b i hb => by
      rw [Heap.cell_alloc, if_neg (by omega)]
    have live : ∀ b, b < h1.next → (h1.alloc (List.replicate (w*ht) z)).get b = h1.get b := fun b hb => by
      rw [Heap.get_alloc, if_neg (by omega)]
    refine ⟨bs ++ [g], _, (M.bind_ok e).trans ((M.bind_ok e2).trans rfl), by simp [el], ⟨?_, ?_⟩, ?_, ?_, ?_, ?_, ?_⟩
    · intro a ha
      rcases List.mem_append.mp ha with ha | ha
      · obtain ⟨v, r⟩ := ok.each a ha
        exact ⟨v.transfer (by rw [live _ (hlt a ha)]; exact v.live) (fun i hi => by rw [cell _ _ (hlt a ha)]; exact v.cells i hi), r⟩
      · obtain rfl := List.mem_singleton.mp ha
        exact ⟨hv, e5, e3, e4⟩
    · rw [List.map_append, List.nodup_append]
      refine ⟨ok.apart, by simp, ?_⟩
      intro b hb c hc
      obtain ⟨a, ha, rfl⟩ := List.mem_map.mp hb
      have := hlt a ha
      have hc : c = g.buf := by simpa using hc
      omega
    · intro a ha
      rcases List.mem_append.mp ha with ha | ha
      · refine ⟨(hg a ha).1, fun x y hx hy => ?_⟩
        have := (hg a ha).2 x y hx hy
        unfold Heap.px at this ⊢
        rw [cell _ _ (hlt a ha)]; exact this
      · obtain rfl := List.mem_singleton.mp ha
        refine ⟨by omega, fun x y hx hy => ?_⟩
        have := hv.addr_lt hx hy
        unfold Heap.px
        rw [eb, Heap.cell_alloc, if_pos rfl, List.getElem?_replicate, if_pos (by rw [← ed]; exact this)]
    · rw [Heap.next_alloc]; omega
    · intro b i hb; rw [cell b i (by omega)]; exact hf b i hb
    · intro b hb; rw [live b (by omega)]; exact hal b hb
    · intro b hb hl
      rw [List.map_append, List.mem_append]
      rcases Nat.lt_or_ge b h1.next with c | c
      · rw [live b c] at hl; exact Or.inl (hfr b hb hl)
      · have := Heap.live_lt hl
        rw [Heap.next_alloc] at this
        exact Or.inr (by simp; omega)

theorem reshapeBands_run (z : V) {w ht w0 ht0 : Nat} (hw : w < P32) (hh : ht < P32) (ha : w * ht < P32) :
    ∀ (bs : List Gray) (h : Heap V), BandsOk h w0 ht0 bs →
    ∃ bs' h', Planar.reshapeBands z w ht bs h = .ok bs' h' ∧ bs'.length = bs.length ∧ BandsOk h' w ht bs' ∧ h.next ≤ h'.next ∧
      (∀ b i, b ∉ bs.map Gray.buf → b < h.next → h'.cell b i = h.cell b i) ∧
      (∀ b, b ∉ bs.map Gray.buf → b < h.next → (h'.get b).isSome = (h.get b).isSome) ∧
      (∀ b, h.next ≤ b → (h'.get b).isSome → b ∈ bs'.map Gray.buf) ∧
      (∀ b ∈ bs.map Gray.buf, b ∉ bs'.map Gray.buf → h'.get b = none) ∧
      (∀ b ∈ bs'.map Gray.buf, b ∈ bs.map Gray.buf ∨ h.next ≤ b) ∧
      (w0 = w → ht0 = ht → bs' = bs ∧ h' = h) := by
  intro bs
  induction bs with
  | nil =>
    intro h _
    exact ⟨[], h, rfl, rfl, ⟨nofun, List.nodup_nil⟩, Nat.le_refl _, fun _ _ _ _ => rfl, fun _ _ _ => rfl,
      fun b hb e => absurd e (Heap.not_live hb), nofun, nofun, fun _ _ => ⟨rfl, rfl⟩⟩
  | cons g gs ih =>
    intro h ok
    obtain ⟨hv, hs, h1, h2⟩ := ok.each g (by simp)
    obtain ⟨g', h1', e, r⟩ := reshape_spec z hv hw hh ha (Or.inl hs)
    have hap := ok.apart
    rw [List.map_cons, List.nodup_cons] at hap
    have hlt : ∀ a ∈ gs, a.buf < h.next := fun a ha => (ok.each a (by simp [ha])).1.lt_next
    have hne : ∀ a ∈ gs, a.buf ≠ g.buf := fun a ha c => hap.1 (by rw [← c]; exact List.mem_map_of_mem ha)
    have ok1 : BandsOk h1' w0 ht0 gs := by
      refine ⟨fun a ha => ?_, hap.2⟩
      obtain ⟨v, q⟩ := ok.each a (by simp [ha])
      exact ⟨v.transfer (by rw [r.alive _ (hne a ha) (hlt a ha)]; exact v.live)
        (fun i hi => by rw [r.frame _ _ (hne a ha) (hlt a ha)]; exact v.cells i hi), q⟩
    obtain ⟨bs', h', e2, el, ok2, n2, f2, a2, fr2, rl2, mn2, sm2⟩ := ih h1' ok1
    have nx : h.next ≤ h1'.next := by
      rcases r.buf with ⟨_, c⟩ | ⟨_, c⟩
      · rw [c]; exact Nat.le_refl _
      · omega
    have hg' : g'.buf ∉ gs.map Gray.buf := by
      rcases r.buf with ⟨c, _⟩ | ⟨c, _⟩
      · rw [c]; exact hap.1
      · intro hm
        obtain ⟨a, ha, ea⟩ := List.mem_map.mp hm
        have := hlt a ha; omega
    have hgl : g'.buf < h1'.next := r.valid.lt_next
    refine ⟨g' :: bs', h', (M.bind_ok e).trans ((M.bind_ok e2).trans rfl), by simp [el], ⟨?_, ?_⟩, by omega, ?_, ?_, ?_, ?_, ?_, ?_⟩
    · intro a ha
      rcases List.mem_cons.mp ha with rfl | ha
      · exact ⟨r.valid.transfer (by rw [a2 _ hg' hgl]; exact r.valid.live)
          (fun i hi => by rw [f2 _ _ hg' hgl]; exact r.valid.cells i hi), by rw [r.sub]; exact hs, r.width, r.height⟩
      · exact ok2.each a ha
    · rw [List.map_cons, List.nodup_cons]
      refine ⟨fun hm => ?_, ok2.apart⟩
      rcases mn2 _ hm with c | c
      · exact hg' c
      · omega
    · intro b i hb hl
      rw [List.map_cons, List.mem_cons, not_or] at hb
      rw [f2 b i hb.2 (by omega), r.frame b i hb.1 hl]
    · intro b hb hl
      rw [List.map_cons, List.mem_cons, not_or] at hb
      rw [a2 b hb.2 (by omega), r.alive b hb.1 hl]
    · intro b hb hl
      rw [List.map_cons, List.mem_cons]
      rcases Nat.lt_or_ge b h1'.next with c | c
      · rcases r.memory with ⟨_, c2, _⟩ | ⟨c1, c2, _⟩
        · omega
        · exact Or.inl (by omega)
      · exact Or.inr (fr2 b c hl)
    · intro b hb hn
      rw [List.map_cons, List.mem_cons] at hb
      rw [List.map_cons, List.mem_cons, not_or] at hn
      by_cases hm : b ∈ gs.map Gray.buf
      · exact rl2 b hm hn.2
      rcases hb with rfl | hb
      · rcases r.memory with ⟨c, _⟩ | ⟨_, _, c⟩
        · exact absurd c.symm hn.1
        · have hgn := hv.lt_next
          have := a2 g.buf hm (by omega)
          rw [c] at this
          exact Option.not_isSome_iff_eq_none.mp (by rw [this]; simp)
      · exact absurd hb hm
    · intro b hb
      rw [List.map_cons, List.mem_cons] at hb ⊢
      rcases hb with rfl | hb
      · rcases r.buf with ⟨c, _⟩ | ⟨c, _⟩
        · exact Or.inl (Or.inl c)
        · exact Or.inr (by omega)
      · rcases mn2 b hb with c | c
        · exact Or.inl (Or.inr c)
        · exact Or.inr (by omega)
    · intro c1 c2
      obtain ⟨d1, d2⟩ := r.same (by omega) (by omega)
      obtain ⟨d3, d4⟩ := sm2 c1 c2
      exact ⟨by rw [d1, d3], by rw [d4, d2]⟩

end Boof
