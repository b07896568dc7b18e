import Verif.Proofs.NativeContour
/-
C76, C77: the contour finder used from Java.
-/
namespace Boof
open M

theorem starts_length (e : Bool) (B : Pix → Bool) (l : List Pix) : (starts e B l).length ≤ 2 * l.length := by
  classical
  induction l with
  | nil => simp [starts]
  | cons a l ih =>
    unfold starts at *
    rw [List.flatMap_cons, List.length_append, List.length_cons]
    have : (startsAt e B a).length ≤ 2 := by
      unfold startsAt
      rw [List.length_append]
      split <;> split <;> simp
    omega

theorem asUnsigned_eq {x : Int} (h1 : -2147483648 ≤ x) (h2 : x < 2147483648) : (toU32 x : Int) = asUnsigned x := by
  unfold toU32 asUnsigned P32
  split <;> omega

theorem toS32_toU32 {x : Int} (h1 : -2147483648 ≤ x) (h2 : x < 2147483648) : toS32 (toU32 x) = x := by
  unfold toS32 toU32 P32
  simp only []
  split <;> omega

/-- The labeller has the settings `c`. -/
structure Configured (l : Labeller) (c : ChangSettings) : Prop where
  rule : l.rule = c.rule
  min : l.minContourSize = toU32 c.min ∧ -2147483648 ≤ c.min ∧ c.min < 2147483648
  max : l.maxContourSize = toU32 c.max ∧ -2147483648 ≤ c.max ∧ c.max < 2147483648
  save : l.saveInternalContours = c.save

theorem Configured.keeps {l : Labeller} {c : ChangSettings} (h : Configured l c) (x : Bool) (n : Nat) :
    l.limits.Keeps x n ↔ c.Keeps x n := by
  unfold Limits.Keeps ChangSettings.Keeps Labeller.limits
  simp only []
  rw [h.save, h.min.1, h.max.1, ← asUnsigned_eq h.min.2.1 h.min.2.2, ← asUnsigned_eq h.max.2.1 h.max.2.2]
  simp only [Int.ofNat_le, Int.ofNat_lt]

/-- The labels of a picture. -/
noncomputable def labelsOf (r : ConnectRule) (w ht : Nat) (f : Nat → Nat → Int) (x y : Nat) : Int :=
  if f x y = 1 then (idOf (decide (r = .eight)) (framed w ht f) w ht (x + 1, y + 1) : Int) else 0

/-- What C++ has computed is what Java reads. -/
theorem process_facts {h h' : Heap Int} {l l' : Labeller} {c : ChangSettings} {binary labeled lab : Gray} {f : Nat → Nat → Int}
    {fuel : Nat} (hl : Labeller.Reachable h l) (hc : Configured l c) (ha : l.Accepts h binary labeled f fuel)
    (hr : l.process fuel binary labeled h = .ok (l', lab) h') {old : List (List Int)} (ho : ∀ r ∈ old, r.length = 4000)
    (hol : old.length = l'.packedPoints.blocks.length) :
    (∀ c ∈ l'.contours, c.internalIndexes.length < 2147483648) ∧
    ∃ j, copyIntoJava l'.packedPoints 4000 old = .ok j () ∧
      JavaContours c binary.width binary.height f (labelsOf l.rule binary.width binary.height f) (l'.contours.map toJava) j := by
  have hp := label_done hl ha hr
  have hB := framed_in binary.width binary.height f
  obtain ⟨perm, ids⟩ := C66_bookkeeping hl ha hr
  obtain ⟨sides, paths, external, b1, b2, b3, b4, b5⟩ := boundaries_rep hl ha hr
  obtain ⟨j, j1, j2, j3⟩ := java_decodes b4 hp.ready.block (by omega) (old := old) (by simpa using ho) hol
  have hlen : l'.contours.length = (firsts (decide (l.rule = .eight)) (framed binary.width binary.height f)
      (raster binary.width binary.height)).length := by
    rw [hp.contours, book_length, (tags_facts hB hp.orbits).1]
  have hlab := labelling_ids (decide (l.rule = .eight)) binary.width binary.height f ha.bits
  rw [← hlen, show rl (decide (l.rule = .eight)) = l.rule from (ruleOf_decide l.rule).symm] at hlab
  -- the number of sets
  have o1 := observes_of_rep hp.points
  have o2 := observes_of_rep b4
  have hn1 : sides.length ≤ 2 * (binary.width * binary.height) := by
    have := starts_length (decide (l.rule = .eight)) (framed binary.width binary.height f) (raster binary.width binary.height)
    rw [raster_length] at this
    have e1 := o1.number
    rw [List.length_map] at e1
    have e2 := o2.number
    rw [List.length_mapIdx, b2] at e2
    omega
  have hn : sides.length < 2147483648 := by
    have := ha.size
    have s3 : (binary.width + 2) * (binary.height + 2) = binary.width * binary.height + 2 * binary.width + 2 * binary.height + 4 := by ring
    unfold P32 at this
    omega
  have hns : l'.packedPoints.numberOfSets = sides.length := by
    rw [o2.number32 (by rw [List.length_mapIdx, b2]; unfold P32; omega), List.length_mapIdx, b2]
  rw [hns] at perm
  have hj : j.sets.length = sides.length := by rw [j2, List.length_mapIdx, b2]
  have hidx : ∀ c ∈ l'.contours, ∀ i ∈ c.externalIndex :: c.internalIndexes, i < sides.length := fun c hc i hi =>
    List.mem_range.1 (perm.mem_iff.1 (List.mem_flatMap.2 ⟨c, hc, hi⟩))
  have hsub : ∀ c ∈ l'.contours, c.internalIndexes.length < sides.length := by
    intro c hc
    have e := perm.length_eq
    rw [List.length_range] at e
    have : ∀ L : List ContourPacked, c ∈ L → c.internalIndexes.length < (L.flatMap (fun c => c.externalIndex :: c.internalIndexes)).length := by
      intro L
      induction L with
      | nil => intro h; cases h
      | cons a L ih =>
        intro h
        rw [List.flatMap_cons, List.length_append, List.length_cons]
        rcases List.mem_cons.1 h with rfl | h
        · omega
        · have := ih h; omega
    have := this _ hc
    omega
  have hcount : l'.contours.length ≤ sides.length := by
    have e := perm.length_eq
    rw [List.length_range] at e
    have : ∀ L : List ContourPacked, L.length ≤ (L.flatMap (fun c => c.externalIndex :: c.internalIndexes)).length := by
      intro L
      induction L with
      | nil => simp
      | cons a L ih =>
        rw [List.flatMap_cons, List.length_append, List.length_cons, List.length_cons]
        omega
    have := this l'.contours
    omega
  have hid : ∀ c ∈ l'.contours, toS32 c.id = (c.id : Int) := by
    intro c hc
    have : c.id ∈ l'.contours.map (fun c => c.id) := List.mem_map.2 ⟨c, hc, rfl⟩
    rw [ids] at this
    obtain ⟨k, hk, e⟩ := List.mem_map.1 this
    have := List.mem_range.1 hk
    exact toS32_of_lt (by omega)
  have hS : ∀ c ∈ l'.contours, ∀ i ∈ c.externalIndex :: c.internalIndexes, toS32 i = (i : Int) := fun c hc i hi => by
    have := hidx c hc i hi
    exact toS32_of_lt (by omega)
  have hg : ∀ (i : Nat) (s : (Nat × Nat) × (Nat × Nat)) (v : Int), sides[i]? = some s → h'.px lab (s.1.1 - 1) (s.1.2 - 1) = some v →
      labelsOf l.rule binary.width binary.height f (s.1.1 - 1) (s.1.2 - 1) = v := by
    intro i s v hs hv
    obtain ⟨a, b, hx, hy, -, e⟩ := (b1.side s (List.mem_of_getElem? hs)).1
    rw [e] at hv ⊢
    simp only [Nat.add_sub_cancel] at hv ⊢
    rw [hp.labels a b hx hy] at hv
    injection hv
  refine ⟨fun c hc => by have := hsub c hc; omega, j, j1, ?_, ?_, ?_, sides, paths, external, ?_, b2, hj, ?_, ?_⟩
  · rw [List.length_map, ← hc.rule]; exact hlab
  · rw [List.length_map, List.map_map]
    have : l'.contours.map ((fun c => c.id) ∘ toJava) = (l'.contours.map (fun c => c.id)).map (fun (k : Nat) => (k : Int)) := by
      rw [List.map_map]
      exact List.map_congr_left (fun c hc => hid c hc)
    rw [this, ids, List.map_map]
    exact List.map_congr_left (fun k _ => by simp)
  · have e1 : (l'.contours.map toJava).flatMap (fun c => c.externalIndex :: c.internalIndexes) =
        (l'.contours.flatMap (fun c => c.externalIndex :: c.internalIndexes)).map (fun (k : Nat) => (k : Int)) := by
      rw [List.flatMap_map, List.map_flatMap]
      have : ∀ L : List ContourPacked, (∀ c ∈ L, ∀ i ∈ c.externalIndex :: c.internalIndexes, toS32 i = (i : Int)) →
          L.flatMap (fun a => (toJava a).externalIndex :: (toJava a).internalIndexes) =
          L.flatMap (fun a => (a.externalIndex :: a.internalIndexes).map (fun (k : Nat) => (k : Int))) := by
        intro L
        induction L with
        | nil => intro _; rfl
        | cons a L ih =>
          intro hL
          rw [List.flatMap_cons, List.flatMap_cons, ih (fun c hc => hL c (List.mem_cons_of_mem _ hc))]
          congr 1
          exact List.map_congr_left (f := toS32) (l := a.externalIndex :: a.internalIndexes) (hL a (List.mem_cons_self ..))
      exact this _ hS
    rw [e1, hj]
    exact perm.map _
  · rw [← hc.rule]; exact b1
  · intro i s path hs hpth
    obtain ⟨q1, q2⟩ := b3 i s path hs hpth
    rw [← hc.rule]
    refine ⟨q1, q2, ?_⟩
    have := j3 i _ (by rw [List.getElem?_mapIdx, hpth]; rfl)
    rw [this]
    simp only [hc.keeps]
  · intro k hk
    obtain ⟨p, hpm, rfl⟩ := List.mem_map.1 hk
    obtain ⟨⟨s, s1, s2, s3⟩, q2⟩ := b5 p hpm
    refine ⟨⟨p.externalIndex, s, hS p hpm _ (List.mem_cons_self ..), s1, s2, ?_⟩, ?_⟩
    · rw [hg _ s _ s1 s3]; exact (hid p hpm).symm
    · intro m hm
      obtain ⟨i, hi, rfl⟩ := List.mem_map.1 hm
      obtain ⟨s, t1, t2, t3⟩ := q2 i hi
      refine ⟨i, s, hS p hpm _ (List.mem_cons_of_mem _ hi), t1, t2, ?_⟩
      rw [hg _ s _ t1 t3]; exact (hid p hpm).symm

/-- Everything about a call. -/
theorem chang_run {h : Heap Int} {l : Labeller} {c : ChangSettings} {ji jo : JImage} {q : JQueue} {blocks : Nat → List (List Int)}
    {f : Nat → Nat → Int} {fuel : Nat} (hl : Labeller.Reachable h l) (hc : Configured l c) (ha : ChangArgs h l ji jo q blocks f fuel)
    (c1 c2 : Bool) (cq : Nat → Bool) (pins : List Pin) :
    ∃ l' r s' g, nativeChang fuel l ji jo q 4000 blocks c1 c2 cq ⟨h, pins⟩ = .ok (l', r) s' ∧
      JavaEffect ⟨h, pins⟩ s' (fun b => b = l.border.buf ∨ b = q.data) jo g ∧
      JavaContours c ji.width.toNat ji.height.toNat f g r.contours r.packed ∧
      r.queue.Ok s'.heap ∧ (r.queue.data = q.data ∨ h.next ≤ r.queue.data) ∧ r.queue.data ≠ l'.border.buf ∧
      (l'.border.buf = l.border.buf ∨ h.next ≤ l'.border.buf) ∧
      Labeller.Reachable s'.heap l' ∧ Configured l' c := by
  have hai := ha.images
  obtain ⟨ai, li, eai, -⟩ := hai.input.array
  obtain ⟨ao, lo, eao, -⟩ := hai.output.array
  have hbl := hl.ready.valid.lt_next
  obtain ⟨aq, haq⟩ := ha.queue.array
  have hop : ∀ (h1 : Heap Int) (i o : Gray), o.stride = jo.stride.toNat →
      Op2At h (· = l.border.buf) ji.width.toNat ji.height.toNat f (· = labelsOf l.rule ji.width.toNat ji.height.toNat f)
        (fun i o => l.process fuel i o) (fun l' h' => Labeller.Reachable h' l' ∧ Configured l' c ∧
          (l'.border.buf = l.border.buf ∨ h.next ≤ l'.border.buf) ∧ l'.border.buf < h'.next ∧
          (∀ c ∈ l'.contours, c.internalIndexes.length < 2147483648) ∧
          ∃ j, copyIntoJava l'.packedPoints 4000 (blocks l'.packedPoints.blocks.length) = .ok j () ∧
            JavaContours c ji.width.toNat ji.height.toNat f (labelsOf l.rule ji.width.toNat ji.height.toNat f)
              (l'.contours.map toJava) j) h1 i o := by
    intro h1 i o hst hn hfr vi vo iw ih ow oh is os il ol hne ni no sh
    have hl1 : Labeller.Reachable h1 l := hl.elsewhere (fun k => cell_congr (hfr _ hbl) k) (by rw [hfr _ hbl])
    have e1 : ((i.width : Int) = ji.width) := by rw [iw]; have := hai.input.width; omega
    have e2 : ((i.height : Int) = ji.height) := by rw [ih]; have := hai.input.height; omega
    have hacc : l.Accepts h1 i o f fuel := by
      refine ⟨vi, by rw [iw, ih] at *; exact sh, fun x y hx hy => ha.bits x y (by omega) (by omega), ?_, vo, Or.inr ⟨by omega, by omega⟩, ?_,
        Or.inl hne, ⟨no, ni⟩, ?_⟩
      · have := ha.pixels
        rw [← e1, ← e2] at this
        unfold P32
        exact_mod_cast this
      · have := ha.stride
        rw [hst]; omega
      · have := ha.fuelEnough
        rw [← e1, ← e2] at this
        exact_mod_cast this
    obtain ⟨⟨l', lab⟩, h2, er, hp⟩ := label_run hl1 hacc
    have hp : Processed f h1 h2 l l' i o lab := hp
    have hb := ha.blocks l'.packedPoints.blocks.length
    obtain ⟨k1, j, k2, k3⟩ := process_facts hl1 hc hacc er hb.2 hb.1
    obtain ⟨hlb, fin⟩ := hp.inPlace (by omega) (by omega)
    have hlb : lab = o := hlb
    subst hlb
    have hbB := hp.bufB
    have hR : Labeller.Reachable h2 l' := .process hl1 hacc er
    refine ⟨l', h2, labelsOf l.rule ji.width.toNat ji.height.toNat f, rfl, er, ?_, hp.nextLe, ?_, ?_, ?_⟩
    · intro x y hx hy
      have := hp.labels x y (by omega) (by omega)
      rw [iw, ih] at this
      exact this
    · intro b k hb hnb hpx
      exact fin b k hnb hb (fun x y hx hy => hpx x y (by omega) (by omega))
    · intro b hb hnb
      by_cases c : b = lab.buf
      · rw [c, Option.isSome_iff_ne_none.mpr (Option.isSome_iff_ne_none.mp hp.valid.live), vo.live]
      · exact hp.alive b c hnb hb
    · intro h3 h3e
      have hbuf : h3.get l'.border.buf = h2.get l'.border.buf := h3e _ (by rcases hbB with e | e; exact Or.inl e; exact Or.inr e)
      have hR3 : Labeller.Reachable h3 l' := hR.elsewhere (fun k => cell_congr hbuf k) (by rw [hbuf])
      refine ⟨hR3, ⟨by rw [hp.rule]; exact hc.rule, ?_, ?_, ?_⟩, by omega, hR3.ready.valid.lt_next, k1, j, k2, ?_⟩
      · have := congrArg Limits.min hp.limits
        exact ⟨this.trans hc.min.1, hc.min.2⟩
      · have := congrArg Limits.max hp.limits
        exact ⟨this.trans hc.max.1, hc.max.2⟩
      · exact (congrArg Limits.internal hp.limits).trans hc.save
      · rw [← iw, ← ih]; exact k3
  obtain ⟨l', h1, F, rfl, e1, hJ, ⟨hR, hC, hbuf, hblt, hk1, j, hk2, hk3⟩, hnx⟩ := changImages_run hai.input hai.output hai.apart hai.width hai.height
    (own := (· = l.border.buf)) (by rintro b rfl; exact hbl)
    (by rintro b rfl; exact ⟨ha.apart.2.2.2.1, ha.apart.2.2.2.2⟩) hai.shows hop c1 c2 pins
  -- the queue
  obtain ⟨hqg, hqs, hql⟩ := haq
  have hqlt := Heap.lt_next_of_get hqg
  have hqa : ∃ l1, h1.get q.data = some l1 ∧ l1.length = aq.length := by
    have hal := hJ.alive q.data hqlt ha.apart.2.2.1
    rw [hqg] at hal
    obtain ⟨l1, hl1⟩ := isSome_get (by rw [hal]; rfl : (h1.get q.data).isSome)
    refine ⟨l1, hl1, ?_⟩
    have hcell : ∀ i : Nat, l1[i]? = aq[i]? := by
      intro i
      have := hJ.frame q.data i hqlt ha.apart.2.2.1 (fun x y _ _ hx => ha.apart.2.1 hx.1)
      unfold Heap.cell at this
      simp only [hqg, hl1] at this
      exact this
    rw [List.ext_getElem? hcell]
  obtain ⟨l1, hl1, hll⟩ := hqa
  have ew : (WrapQueue.new q : J Int WrapQueue) ⟨h1, pins⟩ = .ok ⟨q.data, q.size, l1.length⟩ ⟨h1, pins⟩ := by
    unfold WrapQueue.new
    have : (J.arrayLength q.data : J Int Nat) ⟨h1, pins⟩ = .ok l1.length ⟨h1, pins⟩ := by
      unfold J.arrayLength
      simp only [hl1]
    exact (J.bind_ok this).trans rfl
  have hsync : Sync h1 ⟨q.data, q.size, l1.length⟩ q := ⟨rfl, rfl, ⟨l1, hl1, rfl, by omega, by omega⟩, ha.queue.size⟩
  obtain ⟨q', h2, e2, hqok, hst⟩ := sendContours_run cq l'.contours hk1 hsync pins
  have hbq : l'.border.buf ≠ q.data := by
    rcases hbuf with e | e
    · rw [e]; exact fun h => ha.apart.2.2.1 h.symm
    · omega
  have hbg := hst.frame _ hblt hbq
  have hal2 := hst.alive
  refine ⟨l', ⟨l'.contours.map toJava, j, q'⟩, ⟨h2, pins⟩, _, ?_, ⟨rfl, ?_, ?_, ?_⟩, hk3, hqok, ?_, ?_, hbuf, ?_, hC⟩
  · unfold nativeChang
    refine (J.bind_ok e1).trans ((J.bind_ok ew).trans ((J.bind_ok e2).trans ?_))
    simp only [hk2]
  · intro x y hx hy
    obtain ⟨a, ea, hc⟩ := hJ.shows x y hx hy
    refine ⟨a, ea, ?_⟩
    rw [← hc]
    refine cell_congr (hst.frame a ?_ ?_) _
    · exact Heap.lt_next_of_cell hc
    · rintro rfl; exact ha.apart.2.1 ea
  · intro b i hb hnb hpx
    rw [← hJ.frame b i hb (fun e => hnb (Or.inl e)) hpx]
    have hb' : b < h.next := hb
    exact cell_congr (hst.frame b (by omega) (fun e => hnb (Or.inr e))) i
  · intro b hb hnb
    rw [← hJ.alive b hb (fun e => hnb (Or.inl e))]
    have hb' : b < h.next := hb
    show (h2.get b).isSome = (h1.get b).isSome
    rw [hst.frame b (by omega) (fun e => hnb (Or.inr e))]
  · show q'.data = q.data ∨ h.next ≤ q'.data
    rcases hst.data with e | e
    · exact Or.inl e
    · exact Or.inr (by omega)
  · show q'.data ≠ l'.border.buf
    rcases hst.data with e | e
    · rw [e]; exact fun h => hbq h.symm
    · omega
  · exact hR.elsewhere (fun k => cell_congr hbg k) (by rw [hbg])

theorem ChangObject.inv {s : Jvm Int} {l : Labeller} {c : ChangSettings} (ho : ChangObject s l c) :
    Labeller.Reachable s.heap l ∧ Configured l c := by
  induction ho with
  | @init junk s s' l hr =>
    obtain ⟨l1, h1, e, hd, -⟩ := new_ready .four junk s.heap
    have hR : Labeller.Reachable h1 l1 := .new e
    unfold nativeChangInit at hr
    rw [J.bind_ok (J.lift_ok (pins := s.pins) e)] at hr
    unfold Labeller.new at e
    cases hr
    refine ⟨hR.setLimits l1.minContourSize 2147483647 l1.saveInternalContours, ?_⟩
    cases e
    exact ⟨rfl, ⟨rfl, by decide, by decide⟩, ⟨rfl, by decide, by decide⟩, rfl⟩
  | @setMin s l c x h1 h2 _ ih =>
    exact ⟨ih.1.setLimits _ _ _, ih.2.rule, ⟨rfl, h1, h2⟩, ih.2.max, ih.2.save⟩
  | @setMax s l c x h1 h2 _ ih =>
    exact ⟨ih.1.setLimits _ _ _, ih.2.rule, ih.2.min, ⟨rfl, h1, h2⟩, ih.2.save⟩
  | @setSave s l c b _ ih => exact ⟨ih.1.setLimits _ _ _, ih.2.rule, ih.2.min, ih.2.max, rfl⟩
  | @setRule s l l' c r _ hr ih =>
    cases r <;> (cases hr; exact ⟨ih.1.setConnectRule _, rfl, ih.2.min, ih.2.max, ih.2.save⟩)
  | @process s s' l l' c ji jo q blocks f fuel c1 c2 cq r _ ha hr ih =>
    obtain ⟨l1, r1, s1, g, e, -, -, -, -, -, -, h1, h2⟩ := chang_run ih.1 ih.2 ha c1 c2 cq s.pins
    have e : nativeChang fuel l ji jo q 4000 blocks c1 c2 cq s = _ := e
    rw [e] at hr
    cases hr
    exact ⟨h1, h2⟩
  | @elsewhere s s' l c _ h1 h2 ih => exact ⟨ih.1.elsewhere h1 h2, ih.2⟩

/-! ## C76 -/

/-- `process` called from Java: it succeeds, whether or not the virtual machine copies the arrays; no array stays pinned; the
label image has the labels of the connected components; the contours, their numbers, their sets of points and the points as Java
reads them are those of the picture and the settings.  Only the label image and the finder's own arrays change. -/
theorem C76_process {s : Jvm Int} {l : Labeller} {c : ChangSettings} {ji jo : JImage} {q : JQueue} {blocks : Nat → List (List Int)}
    {f : Nat → Nat → Int} {fuel : Nat} (ho : ChangObject s l c) (ha : ChangArgs s.heap l ji jo q blocks f fuel)
    (c1 c2 : Bool) (cq : Nat → Bool) :
    ∃ l' r s' g, nativeChang fuel l ji jo q 4000 blocks c1 c2 cq s = .ok (l', r) s' ∧
      JavaEffect s s' (fun b => b = l.border.buf ∨ b = q.data) jo g ∧
      JavaContours c ji.width.toNat ji.height.toNat f g r.contours r.packed ∧ ChangObject s' l' c := by
  obtain ⟨h1, h2⟩ := ho.inv
  obtain ⟨l', r, s', g, e, h3, h4, -⟩ := chang_run h1 h2 ha c1 c2 cq s.pins
  exact ⟨l', r, s', g, e, h3, h4, .process ho ha e⟩

/-- The same images can be given to the same finder again. -/
theorem C76_again {s s' : Jvm Int} {l l' : Labeller} {c : ChangSettings} {ji jo : JImage} {q : JQueue} {blocks : Nat → List (List Int)}
    {f : Nat → Nat → Int} {fuel : Nat} (ho : ChangObject s l c) (ha : ChangArgs s.heap l ji jo q blocks f fuel)
    {c1 c2 : Bool} {cq : Nat → Bool} {r : ChangResult} (hr : nativeChang fuel l ji jo q 4000 blocks c1 c2 cq s = .ok (l', r) s') :
    ChangArgs s'.heap l' ji jo r.queue blocks f fuel := by
  obtain ⟨h1, h2⟩ := ho.inv
  obtain ⟨l1, r1, s1, g, e, hJ, -, hq, hqd, hqb, hbb, -⟩ := chang_run h1 h2 ha c1 c2 cq s.pins
  have e : nativeChang fuel l ji jo q 4000 blocks c1 c2 cq s = _ := e
  rw [e] at hr
  cases hr
  have hJ : JavaEffect s s' (fun b => b = l.border.buf ∨ b = q.data) jo g := hJ
  have hsame : ∀ b m, s.heap.get b = some m → b ≠ l.border.buf → b ≠ q.data → ∃ m', s'.heap.get b = some m' ∧ m'.length = m.length ∧
      (jo.data ≠ some b → m' = m) := by
    intro b m hm n1 n2
    have hlt := Heap.lt_next_of_get hm
    have hal := hJ.alive b hlt (by rintro (c | c); exact n1 c; exact n2 c)
    rw [hm] at hal
    obtain ⟨m', hm'⟩ := isSome_get (by rw [hal]; rfl : (s'.heap.get b).isSome)
    have hsh : ∀ x y : Nat, (x : Int) < jo.width → (y : Int) < jo.height → ∃ a k, jo.data = some a ∧ s.heap.cell a (jo.addr x y) = some k := by
      intro x y hx hy
      obtain ⟨a, lo, e1, e2, -, e4⟩ := ha.images.output.array
      refine ⟨a, ?_⟩
      have := e4 y hy
      have hs := ha.images.output.start; have ht := ha.images.output.stride; have hw := ha.images.output.width
      have hlt : jo.addr x y < lo.length := by
        unfold JImage.addr
        have : ((jo.startIndex.toNat + y * jo.stride.toNat + x : Nat) : Int) = jo.startIndex + y * jo.stride + x := by
          push_cast
          rw [Int.toNat_of_nonneg hs.1, Int.toNat_of_nonneg (by omega)]
        omega
      refine ⟨lo[jo.addr x y], e1, ?_⟩
      unfold Heap.cell
      rw [e2]
      exact List.getElem?_eq_getElem hlt
    have hcell : ∀ i : Nat, (m'[i]?).isSome = (m[i]?).isSome ∧ (jo.data ≠ some b → m'[i]? = m[i]?) := by
      intro i
      have ec : s'.heap.cell b i = m'[i]? ∧ s.heap.cell b i = m[i]? := by unfold Heap.cell; rw [hm, hm']; exact ⟨rfl, rfl⟩
      by_cases hx : ∃ x y : Nat, (x : Int) < jo.width ∧ (y : Int) < jo.height ∧ jo.data = some b ∧ i = jo.addr x y
      · obtain ⟨x, y, hx, hy, hd, rfl⟩ := hx
        obtain ⟨a, k, e1, e2⟩ := hsh x y hx hy
        obtain ⟨a', e1', e2'⟩ := hJ.shows x y hx hy
        rw [hd] at e1 e1'
        cases e1; cases e1'
        rw [← ec.1, ← ec.2, e2, e2']
        exact ⟨rfl, fun c => absurd hd c⟩
      · have := hJ.frame b i hlt (by rintro (c | c); exact n1 c; exact n2 c) (fun x y hx' hy' hc => hx ⟨x, y, hx', hy', hc.1, hc.2⟩)
        rw [ec.1, ec.2] at this
        exact ⟨by rw [this], fun _ => this⟩
    refine ⟨m', hm', ?_, fun hne => List.ext_getElem? (fun i => (hcell i).2 hne)⟩
    have h1 := (hcell m'.length).1
    have h2 := (hcell m.length).1
    rw [List.getElem?_eq_none (Nat.le_refl _)] at h1
    have h2' : (m'[m.length]?).isSome = false := by rw [h2, List.getElem?_eq_none (Nat.le_refl _)]; rfl
    have h1' : (m[m'.length]?).isSome = false := by rw [← h1]; rfl
    simp only [Option.isSome_eq_false_iff, Option.isNone_iff_eq_none, List.getElem?_eq_none_iff] at h1' h2'
    omega
  obtain ⟨a1, a2, a3, a4, a5⟩ := ha.apart
  obtain ⟨ai, li, ei, gi, li1, li2⟩ := ha.images.input.array
  obtain ⟨ao, lo, eo, go, lo1, lo2⟩ := ha.images.output.array
  have ki := Heap.lt_next_of_get gi
  have ko := Heap.lt_next_of_get go
  obtain ⟨mi, gi', ni, qi⟩ := hsame ai li gi (fun c => a4 (by rw [ei, c])) (fun c => a1 (by rw [ei, c]))
  obtain ⟨mo, go', no, -⟩ := hsame ao lo go (fun c => a5 (by rw [eo, c])) (fun c => a2 (by rw [eo, c]))
  have qi := qi (fun c => ha.images.apart (by rw [ei, c]))
  subst qi
  refine ⟨⟨⟨⟨ai, mi, ei, gi', li1, li2⟩, ha.images.input.width, ha.images.input.height, ha.images.input.start, ha.images.input.stride⟩,
    ⟨⟨ao, mo, eo, go', by omega, by rw [no]; exact lo2⟩, ha.images.output.width, ha.images.output.height, ha.images.output.start,
      ha.images.output.stride⟩, ha.images.apart, ha.images.width, ha.images.height, ?_⟩, ha.bits, ha.pixels, ha.stride, hq, ⟨?_, ?_, hqb, ?_, ?_⟩, ha.blocks,
    ha.fuelEnough⟩
  · intro x y hx hy
    obtain ⟨a, e1, e2⟩ := ha.images.shows x y hx hy
    refine ⟨a, e1, ?_⟩
    rw [ei] at e1; cases e1
    rw [← e2]
    exact cell_congr (gi'.trans gi.symm) _
  · rw [ei]; rintro ⟨⟩; rcases hqd with c | c
    · exact a1 (by rw [ei, c])
    · omega
  · rw [eo]; rintro ⟨⟩; rcases hqd with c | c
    · exact a2 (by rw [eo, c])
    · omega
  · rw [ei]; rintro ⟨⟩; rcases hbb with c | c
    · exact a4 (by rw [ei, c])
    · omega
  · rw [eo]; rintro ⟨⟩; rcases hbb with c | c
    · exact a5 (by rw [eo, c])
    · omega

/-! ## C77 -/

/-- The getters return what was set last, whatever was processed in between; a new finder uses the 4-connected rule, keeps
internal contours and has the limits 0 and 2147483647. -/
theorem C77_settings {s : Jvm Int} {l : Labeller} {c : ChangSettings} (ho : ChangObject s l c) :
    l.nativeGetMin = c.min ∧ l.nativeGetMax = c.max ∧ l.nativeGetSave = c.save ∧
      l.nativeGetRule = (if c.rule = .four then 0 else 1) := by
  obtain ⟨-, h⟩ := ho.inv
  refine ⟨?_, ?_, h.save, ?_⟩
  · show toS32 l.minContourSize = _
    rw [h.min.1, toS32_toU32 h.min.2.1 h.min.2.2]
  · show toS32 l.maxContourSize = _
    rw [h.max.1, toS32_toU32 h.max.2.1 h.max.2.2]
  · unfold Labeller.nativeGetRule
    rw [h.rule]

/-- Enum constants other than the two rules are refused. -/
theorem C77_rule (l : Labeller) (n : Int) : l.nativeSetRule n = none ↔ n ≠ 0 ∧ n ≠ 1 := by
  unfold Labeller.nativeSetRule
  split
  · simp_all
  · split <;> simp_all

/-- A negative limit from Java acts as a huge one: with a negative lower limit no points are kept at all. -/
theorem C77_negative_min (c : ChangSettings) (h1 : -2147483648 ≤ c.min) (h2 : c.min < 0) (x : Bool) (n : Nat)
    (hn : n < 2147483648) : ¬c.Keeps x n := by
  rintro ⟨-, h, -⟩
  unfold asUnsigned at h
  rw [if_pos h2] at h
  omega

/-! ## A concrete case

The picture of `demoPixels` in Java arrays: a ring next to a single pixel. -/

def demoJvm : Jvm Int := ⟨⟨[some demoPixels, some (List.replicate 15 7), some [5]]⟩, []⟩
def demoJvm1 : Jvm Int := ⟨⟨[some demoPixels, some (List.replicate 15 7), some [5], some []]⟩, []⟩
def demoFinder : Labeller := { demoLabeller .four with border := ⟨3, 0, 0, 0, 0, 0, false⟩, maxContourSize := 2147483647 }
def demoBlocks (n : Nat) : List (List Int) := List.replicate n (List.replicate 4000 0)

theorem demo_object : ChangObject demoJvm1 { demoFinder with rule := .eight } ⟨.eight, 0, 2147483647, true⟩ :=
  .setRule .eight (.init (junk := demoJunk) (s := demoJvm) (l := demoFinder) rfl) rfl

theorem demo_args : ChangArgs demoJvm1.heap { demoFinder with rule := .eight } ⟨some 0, 5, 3, 5, 0⟩ ⟨some 1, 5, 3, 5, 0⟩ ⟨2, 1⟩ demoBlocks
    (fun x y => (demoPixels[y * 5 + x]?).getD 0) 1000 where
  images := by
    refine ⟨⟨⟨0, demoPixels, rfl, rfl, by decide, fun y hy => ?_⟩, by decide, by decide, by decide, by decide⟩,
      ⟨⟨1, List.replicate 15 7, rfl, rfl, by decide, fun y hy => ?_⟩, by decide, by decide, by decide, by decide⟩, by decide, rfl, rfl, ?_⟩
    · show (0 : Int) + y * 5 + 5 ≤ 15
      have : (y : Int) < 3 := hy
      omega
    · show (0 : Int) + y * 5 + 5 ≤ 15
      have : (y : Int) < 3 := hy
      omega
    · have h : ∀ x, x < 5 → ∀ y, y < 3 → demoJvm1.heap.cell 0 (0 + y * 5 + x) = some ((demoPixels[y * 5 + x]?).getD 0) := by decide
      intro x y hx hy
      exact ⟨0, rfl, h x (by have : (x : Int) < 5 := hx; omega) y (by have : (y : Int) < 3 := hy; omega)⟩
  bits := by
    have h : ∀ x, x < 5 → ∀ y, y < 3 → (demoPixels[y * 5 + x]?).getD 0 = 0 ∨ (demoPixels[y * 5 + x]?).getD 0 = 1 := by decide
    exact fun x y hx hy => h x (by have : (x : Int) < 5 := hx; omega) y (by have : (y : Int) < 3 := hy; omega)
  pixels := by decide
  stride := by decide
  queue := ⟨⟨[5], rfl, by decide, by decide⟩, by decide⟩
  apart := by decide
  blocks := fun n => ⟨List.length_replicate, fun r hr => by rw [List.eq_of_mem_replicate hr, List.length_replicate]⟩
  fuelEnough := by decide

/-- The hypotheses of C76 and C77 hold for this picture, and the images and contours are as expected. -/
example (c1 c2 : Bool) : (∃ l' r s' g, nativeChang 1000 { demoFinder with rule := .eight } ⟨some 0, 5, 3, 5, 0⟩ ⟨some 1, 5, 3, 5, 0⟩ ⟨2, 1⟩ 4000
      demoBlocks c1 c2 (fun n => n = 1) demoJvm1 = .ok (l', r) s' ∧
      JavaContours ⟨.eight, 0, 2147483647, true⟩ 5 3 (fun x y => (demoPixels[y * 5 + x]?).getD 0) g r.contours r.packed) ∧
    (match nativeChangImages 1000 { demoFinder with rule := .eight } ⟨some 0, 5, 3, 5, 0⟩ ⟨some 1, 5, 3, 5, 0⟩ c1 c2 demoJvm1 with
      | .ok l' s' => decide (s'.heap.get 1 = some [1, 1, 1, 0, 0,  1, 0, 1, 0, 2,  1, 1, 1, 0, 0] ∧
          l'.contours.map toJava = [⟨1, 0, [1]⟩, ⟨2, 2, []⟩])
      | _ => false) = true := by
  obtain ⟨l', r, s', g, e, -, h, -⟩ := C76_process demo_object demo_args c1 c2 (fun n => n = 1)
  refine ⟨⟨l', r, s', g, e, h⟩, ?_⟩
  cases c1 <;> cases c2 <;> decide +kernel

end Boof
