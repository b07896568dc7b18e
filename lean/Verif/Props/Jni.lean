import Verif.Spec.Jni
import Verif.Props.PackedSet
/-
C68: contours handed to Java.
-/
namespace Boof
open PackedSet

theorem javaBlockLoop_spec (src : List Point2D) (dst : List Int) (n : Nat) (hs : n ≤ src.length)
    (hd : 2 * n ≤ dst.length) :
    ∃ d, javaBlockLoop src dst n = some d ∧ d.length = dst.length ∧
      ∀ j, j < n → ∃ p, src[j]? = some p ∧ d[2 * j]? = some p.x ∧ d[2 * j + 1]? = some p.y := by
  induction n with
  | zero => exact ⟨dst, rfl, rfl, fun j hj => by omega⟩
  | succ n ih =>
    obtain ⟨d, e1, e2, e3⟩ := ih (by omega) (by omega)
    have hsn : src[n]? = some src[n] := List.getElem?_eq_getElem (by omega)
    refine ⟨(d.set (n * 2) src[n].x).set (n * 2 + 1) src[n].y, ?_, by simp [e2], ?_⟩
    · simp only [javaBlockLoop, e1, Option.bind_some, hsn]
      rw [if_pos (by omega)]
    · intro j hj
      by_cases hjn : j = n
      · subst hjn
        refine ⟨_, hsn, ?_, ?_⟩
        · rw [List.getElem?_set_ne (by omega), Nat.mul_comm, List.getElem?_set_self (by omega)]
        · rw [show 2 * j + 1 = j * 2 + 1 by omega, List.getElem?_set_self (by simp; omega)]
      · obtain ⟨p, f1, f2, f3⟩ := e3 j (by omega)
        refine ⟨p, f1, ?_, ?_⟩
        · rw [List.getElem?_set_ne (by omega), List.getElem?_set_ne (by omega)]; exact f2
        · rw [List.getElem?_set_ne (by omega), List.getElem?_set_ne (by omega)]; exact f3

theorem javaBlocks_spec (s : Nat) (B : List (List Point2D)) (old : List (List Int))
    (hB : ∀ r ∈ B, r.length = s) (ho : ∀ r ∈ old, r.length = s * 2) (hl : old.length = B.length) :
    ∃ J, javaBlocks s B old = some J ∧ J.length = B.length ∧
      ∀ b j, b < B.length → j < s → ∃ row p, J[b]? = some row ∧ (B[b]?).bind (fun r => r[j]?) = some p ∧
        row[2 * j]? = some p.x ∧ row[2 * j + 1]? = some p.y := by
  induction B generalizing old with
  | nil => exact ⟨[], by cases old <;> rfl, rfl, fun b j hb => by simp at hb⟩
  | cons r B ih =>
    cases old with
    | nil => simp at hl
    | cons d old =>
      have hr := hB r (List.mem_cons_self ..)
      have hd := ho d (List.mem_cons_self ..)
      obtain ⟨d', e1, e2, e3⟩ := javaBlockLoop_spec r d s (by omega) (by omega)
      obtain ⟨J, f1, f2, f3⟩ := ih old (fun r h => hB r (List.mem_cons_of_mem _ h))
        (fun r h => ho r (List.mem_cons_of_mem _ h)) (by simpa using hl)
      refine ⟨d' :: J, by simp [javaBlocks, e1, f1], by simp [f2], ?_⟩
      intro b j hb hj
      cases b with
      | zero =>
        obtain ⟨p, g1, g2, g3⟩ := e3 j hj
        exact ⟨d', p, rfl, by simpa using g1, g2, g3⟩
      | succ b =>
        obtain ⟨row, p, g1, g2, g3, g4⟩ := f3 b j (by simpa using hb) hj
        exact ⟨row, p, by simpa using g1, by simpa using g2, g3, g4⟩

/-- Java decodes the sets of a collection in any reachable state. -/
theorem java_decodes {p : PackedSet Point2D} {L : List (List Point2D)} (r : Rep p L) {s : Nat} (es : p.sizeOfBlock = s)
    (h2 : s * 2 < 2147483648) {old : List (List Int)} (ho : ∀ r ∈ old, r.length = s * 2) (hol : old.length = p.blocks.length) :
    ∃ j, copyIntoJava p (s * 2) old = .ok j () ∧ j.sets.length = L.length ∧
      ∀ k l, L[k]? = some l → j.decode k = some (l.map some) := by
  have hs : 0 < s := es ▸ r.pos
  obtain ⟨J, j1, j2, j3⟩ := javaBlocks_spec s p.blocks old (by rw [← es]; exact r.rows) ho hol
  refine ⟨⟨s * 2, J, p.setInfo.map (fun s => (wrap32 (s.offset * 2), s.size, s.block))⟩, ?_, ?_, ?_⟩
  · unfold copyIntoJava
    rw [es, wrap32_of_lt (by unfold P32; omega), if_neg (by simp)]
    simp only [j1]
  · simp [r.info, infos_length]
  · intro k l hl
    obtain ⟨si, i1, i2⟩ := info_some r hl
    have hoff : si.offset < s := by
      rw [r.info, infos_get, hl] at i1
      simp only [Option.map_some, Option.some.injEq] at i1
      rw [← i1, es]; exact Nat.mod_lt _ hs
    simp only [JavaPacked.decode, List.getElem?_map, i1, Option.map_some, Option.some.injEq, i2]
    apply List.ext_getElem?
    intro i
    simp only [List.getElem?_map]
    by_cases hi : i < l.length
    · obtain ⟨s', f1, f2, f3, f4, f5⟩ := elem_pos r hl hi
      rw [i1] at f1; cases f1
      rw [List.getElem?_range hi]
      simp only [Option.map_some]
      have hpos : p.pos si i = si.block * s + si.offset + i := by
        have hB : si.block * s + si.offset = (List.take k L).flatten.length := by
          rw [r.info, infos_get, hl] at i1
          simp only [Option.map_some, Option.some.injEq] at i1
          rw [← i1, es]
          simp only [Nat.zero_add]
          rw [Nat.mul_comm, Nat.div_add_mod]
        rw [f3, ← hB]
      rw [f3] at hpos
      rw [hpos] at f4 f5
      rw [flatten_get r.pos r.rows, es] at f5
      have hroom := r.room
      have d1 : (si.block * s + si.offset + i) / s = si.block + (si.offset + i) / s := by
        rw [Nat.add_assoc, Nat.mul_comm, Nat.mul_add_div hs]
      have d2 : (si.block * s + si.offset + i) % s = (si.offset + i) % s := by
        rw [Nat.add_assoc, Nat.mul_comm, Nat.mul_add_mod]
      rw [d1, d2] at f5
      have hblt : si.block + (si.offset + i) / s < p.blocks.length := by
        rw [← d1]; apply Nat.div_lt_of_lt_mul; rw [es] at hroom; rw [Nat.mul_comm s p.blocks.length]; omega
      obtain ⟨row, pt, g1, g2, g3, g4⟩ := j3 _ ((si.offset + i) % s) hblt (Nat.mod_lt _ hs)
      rw [g2] at f5
      rw [← f5]
      simp only [Option.map_some, Option.some.injEq]
      unfold JavaPacked.point
      have q1 : (wrap32 (si.offset * 2) + 2 * i) / (s * 2) = (si.offset + i) / s := by
        rw [wrap32_of_lt (by unfold P32; omega), show si.offset * 2 + 2 * i = (si.offset + i) * 2 by omega,
          Nat.mul_div_mul_right _ _ (by decide)]
      have q2 : (wrap32 (si.offset * 2) + 2 * i) % (s * 2) = 2 * ((si.offset + i) % s) := by
        rw [wrap32_of_lt (by unfold P32; omega), show si.offset * 2 + 2 * i = (si.offset + i) * 2 by omega,
          Nat.mul_mod_mul_right]; omega
      simp only [q1, q2, g1, g3, g4]
    · rw [List.getElem?_eq_none (by simp; omega), List.getElem?_eq_none (by omega)]; rfl

/-- Whatever happened to the native collection before, Java decodes exactly its points, set by set, in order. -/
theorem C68_java_decodes (junk : Point2D) {s : Nat} (hs : 0 < s) (h2 : s * 2 < 2147483648)
    (ops : List (POp Point2D)) (hb : Bounded ops []) (old : List (List Int)) :
    ∃ p, packedRun junk ops (PackedSet.new junk s) = some p ∧
      ((∀ r ∈ old, r.length = s * 2) → old.length = p.blocks.length →
        ∃ j, copyIntoJava p (s * 2) old = .ok j () ∧ j.sets.length = (specRun ops []).length ∧
          ∀ k l, (specRun ops [])[k]? = some l → j.decode k = some (l.map some)) := by
  have hsz : ∀ (ops : List (POp Point2D)) (p : PackedSet Point2D) (L : List (List Point2D)), Rep p L →
      Bounded ops L → ∃ q, packedRun junk ops p = some q ∧ Rep q (specRun ops L) ∧ q.sizeOfBlock = p.sizeOfBlock := by
    intro ops
    induction ops with
    | nil => intro p L h _; exact ⟨p, rfl, h, rfl⟩
    | cons op ops ih =>
      intro p L h hb
      have h1 : ((op.spec L).getD L).flatten.length < P32 := hb 1
      have h2 : Bounded ops ((op.spec L).getD L) := fun n => hb (n + 1)
      have hst := step_rep junk h op h1
      cases ho : op.spec L with
      | none =>
        rw [ho] at hst h2
        obtain ⟨q, e, r, e3⟩ := ih p L h h2
        refine ⟨q, ?_, ?_, e3⟩
        · unfold packedRun; rw [hst]; exact e
        · simpa [specRun, ho] using r
      | some L' =>
        rw [ho] at hst h2
        obtain ⟨p', e1, e2, e4⟩ := hst
        obtain ⟨q, e, r, e3⟩ := ih p' L' e2 h2
        refine ⟨q, ?_, ?_, by omega⟩
        · unfold packedRun; rw [e1]; exact e
        · simpa [specRun, ho] using r
  obtain ⟨p, e, r, e3⟩ := hsz ops _ _ (new_rep junk hs) hb
  have es : p.sizeOfBlock = s := e3
  exact ⟨p, e, fun ho hol => java_decodes r es h2 ho hol⟩

/-- A Java object prepared for another block length is refused. -/
theorem C68_mismatch_throws (p : PackedSet Point2D) (bl : Nat) (old : List (List Int))
    (h : bl ≠ wrap32 (p.sizeOfBlock * 2)) : copyIntoJava p bl old = .throw () := by
  unfold copyIntoJava; rw [if_pos h]

/-- A set of three points spanning two blocks of two. -/
example : ∃ p, packedRun (⟨0, 0⟩ : Point2D) [.push ⟨1, 2⟩, .push ⟨3, 4⟩, .push ⟨5, 6⟩] (PackedSet.new ⟨0, 0⟩ 2) = some p ∧
    p.blocks.length = 2 := ⟨_, rfl, rfl⟩

end Boof
