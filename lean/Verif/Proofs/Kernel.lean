import Verif.Cpp.Logic
import Verif.Spec.Kernel
import Mathlib.Tactic.Ring
import Mathlib.Tactic.Linarith
import Mathlib.Tactic.FieldSimp
import Mathlib.Tactic.Positivity
/-
Kernels: construction, loops that set coefficients, sums and scans.
-/
namespace Boof
variable {V S : Type}

/-! ### fresh kernels -/

theorem fresh_array (E : GrowArray.Elem S) (hz : E.ms E.zero = E.zero) (n : Nat) :
    ∃ a0 a : GrowArray S, GrowArray.newDefault E = .ok () a0 ∧ a0.resize E n = .ok () a ∧ a.size = n ∧
      n ≤ a.data.length ∧ (∀ i, i < a.data.length → a.data[i]? = some E.zero) ∧ a.canResize = true ∧
      a0.size ≤ a0.data.length ∧ a0.canResize = true := by
  refine ⟨⟨List.replicate 10 E.zero, 10, E.zero, true⟩, ?_⟩
  have e0 : GrowArray.newDefault E = .ok () ⟨List.replicate 10 E.zero, 10, E.zero, true⟩ := by
    unfold GrowArray.newDefault GrowArray.new GrowArray.fill
    simp [hz]
  unfold GrowArray.resize GrowArray.arrayLength
  rw [if_neg (by simp)]
  by_cases hn : n > 10
  · rw [if_pos (by simpa using hn), if_pos (by simp)]
    refine ⟨_, e0, rfl, rfl, by simp; omega, ?_, rfl, by simp, rfl⟩
    intro i hi
    simp only [hz] at hi ⊢
    rw [List.take_of_length_le (by simp), ← List.replicate_add, List.getElem?_replicate, if_pos]
    simp at hi; omega
  · rw [if_neg (by simpa using hn)]
    refine ⟨_, e0, rfl, rfl, by simp; omega, ?_, rfl, by simp, rfl⟩
    intro i hi
    simp only at hi ⊢
    rw [List.getElem?_replicate, if_pos]
    simpa using hi

theorem ofGrow_ok {a : GrowArray S} {r : Res (GrowArray S) Unit} (e : r = .ok () a) (h : Heap V) :
    ofGrow r h = .ok a h := by rw [e]; rfl

theorem new1D_run (E : GrowArray.Elem S) (hz : E.ms E.zero = E.zero) {w o : Nat} (ho : o < w) (h : Heap V) :
    ∃ k, Kernel1D.new E w o h = .ok k h ∧ k.Is1D w o (fun _ => E.zero) := by
  obtain ⟨a0, a, e0, e1, e2, e3, e4, -⟩ := fresh_array E hz w
  refine ⟨⟨w, o, a⟩, ?_, ⟨rfl, rfl, e2, fun i hi => e4 i (by omega)⟩⟩
  unfold Kernel1D.new
  rw [if_neg (by omega)]
  exact (M.bind_ok (ofGrow_ok e0 h)).trans ((M.bind_ok (ofGrow_ok e1 h)).trans rfl)

theorem new2D_run (E : GrowArray.Elem S) (hz : E.ms E.zero = E.zero) {w o : Nat} (ho : o < w) (hw : w * w < P32) (h : Heap V) :
    ∃ k, Kernel2D.new E w o h = .ok k h ∧ k.Is2D w o (fun _ _ => E.zero) := by
  obtain ⟨a0, a, e0, e1, e2, e3, e4, -⟩ := fresh_array E hz (wrap32 (w * w))
  rw [wrap32_of_lt hw] at e2 e3
  refine ⟨⟨w, o, a⟩, ?_, ⟨rfl, rfl, e2, fun x y hx hy => e4 _ ?_⟩⟩
  · unfold Kernel2D.new
    rw [if_neg (by omega)]
    exact (M.bind_ok (ofGrow_ok e0 h)).trans ((M.bind_ok (ofGrow_ok e1 h)).trans rfl)
  · have := Nat.mul_le_mul_right w (Nat.succ_le_of_lt hy)
    rw [Nat.succ_mul] at this
    omega

/-! ### setting coefficients -/

/-- `k'` is `k` with the cells in `P` set to `v`. -/
structure Kernel.Filled (k : Kernel S) (v : Nat → S) (P : Nat → Prop) (k' : Kernel S) : Prop where
  width : k'.width = k.width
  offset : k'.offset = k.offset
  size : k'.data.size = k.data.size
  length : k'.data.data.length = k.data.data.length
  yes : ∀ j, P j → j < k.data.data.length → k'.data.data[j]? = some (v j)
  no : ∀ j, ¬P j → k'.data.data[j]? = k.data.data[j]?

theorem Kernel.Filled.refl (k : Kernel S) (v : Nat → S) : k.Filled v (fun _ => False) k :=
  ⟨rfl, rfl, rfl, rfl, fun _ hp => hp.elim, fun _ _ => rfl⟩

theorem Kernel.Filled.congr {k k' : Kernel S} {v : Nat → S} {P Q : Nat → Prop} (hf : k.Filled v P k')
    (hpq : ∀ j, j < k.data.data.length → (P j ↔ Q j)) : k.Filled v Q k' := by
  refine ⟨hf.width, hf.offset, hf.size, hf.length, fun j hq hj => hf.yes j ((hpq j hj).mpr hq) hj, fun j hq => ?_⟩
  by_cases hj : j < k.data.data.length
  · exact hf.no j (fun hp => hq ((hpq j hj).mp hp))
  · rw [List.getElem?_eq_none (by rw [hf.length]; omega), List.getElem?_eq_none (by omega)]

theorem Kernel.Filled.put {k k' : Kernel S} {v : Nat → S} {P : Nat → Prop} (hf : k.Filled v P k') {i : Nat}
    (hi : i < k.data.data.length) {s : S} (hs : s = v i) (h : Heap V) :
    ∃ k'', k'.put i s h = .ok k'' h ∧ k.Filled v (fun j => P j ∨ j = i) k'' := by
  subst hs
  unfold Kernel.put
  rw [if_pos (by rw [hf.length]; exact hi)]
  refine ⟨_, rfl, hf.width, hf.offset, hf.size, ?_, ?_, ?_⟩
  · simp only [List.length_set]; exact hf.length
  · intro j hp hj
    simp only [List.getElem?_set]
    by_cases e : i = j
    · subst e
      rw [if_pos rfl, if_pos (by rw [hf.length]; exact hi)]
    · rw [if_neg e]
      exact hf.yes j (hp.resolve_right (fun e' => e e'.symm)) hj
  · intro j hp
    simp only [List.getElem?_set]
    rw [if_neg (fun e => hp (Or.inr e.symm))]
    exact hf.no j (fun q => hp (Or.inl q))

theorem Kernel.Filled.loop {k k' : Kernel S} {v : Nat → S} {P : Nat → Prop} (hf : k.Filled v P k') {n : Nat}
    {body : Nat → Kernel S → M V (Kernel S)} {R : Nat → Nat → Prop} {h : Heap V}
    (hb : ∀ i k1, i < n → k.Filled v (fun j => P j ∨ ∃ i', i' < i ∧ R i' j) k1 →
      ∃ k2, body i k1 h = .ok k2 h ∧ k.Filled v (fun j => (P j ∨ ∃ i', i' < i ∧ R i' j) ∨ R i j) k2) :
    ∃ k2, M.loopS n k' body h = .ok k2 h ∧ k.Filled v (fun j => P j ∨ ∃ i', i' < n ∧ R i' j) k2 := by
  induction n with
  | zero => exact ⟨k', rfl, hf.congr (fun j _ => ⟨Or.inl, fun q => q.elim id (fun ⟨_, a, _⟩ => by omega)⟩)⟩
  | succ n ih =>
    obtain ⟨k1, e1, f1⟩ := ih (fun i k1 hi => hb i k1 (by omega))
    obtain ⟨k2, e2, f2⟩ := hb n k1 (by omega) f1
    refine ⟨k2, (M.bind_ok e1).trans e2, f2.congr (fun j _ => ?_)⟩
    constructor
    · rintro ((q | ⟨i', a, b⟩) | q)
      · exact Or.inl q
      · exact Or.inr ⟨i', by omega, b⟩
      · exact Or.inr ⟨n, by omega, q⟩
    · rintro (q | ⟨i', a, b⟩)
      · exact Or.inl (Or.inl q)
      · by_cases e : i' = n
        · subst e; exact Or.inr b
        · exact Or.inl (Or.inr ⟨i', by omega, b⟩)

theorem Kernel.Is1D.length {k : Kernel S} {w o : Nat} {c : Nat → S} (hk : k.Is1D w o c) : w ≤ k.data.data.length := by
  rcases Nat.eq_zero_or_pos w with e | e
  · omega
  · have := hk.coef (w-1) (by omega)
    by_contra hn
    rw [List.getElem?_eq_none (by omega)] at this
    cases this

theorem Kernel.Is2D.length {k : Kernel S} {w o : Nat} {c : Nat → Nat → S} (hk : k.Is2D w o c) : w * w ≤ k.data.data.length := by
  rcases Nat.eq_zero_or_pos w with e | e
  · subst e; omega
  · have := hk.coef (w-1) (w-1) (by omega) (by omega)
    by_contra hn
    obtain ⟨m, rfl⟩ : ∃ m, w = m + 1 := ⟨w - 1, by omega⟩
    simp only [Nat.add_sub_cancel] at this
    rw [List.getElem?_eq_none (by
      have : m * (m+1) + m + 1 = (m+1) * (m+1) := by ring
      omega)] at this
    cases this

/-- Setting all coefficients of a 1D kernel, each from the kernel as it was before. -/
theorem fill1D {k : Kernel S} {w o : Nat} {c v : Nat → S} (hk : k.Is1D w o c) {body : Nat → Kernel S → M V (Kernel S)} {h : Heap V}
    (hb : ∀ i k1, i < w → k1.data.data[i]? = some (c i) → k1.data.data.length = k.data.data.length →
      body i k1 h = k1.put i (v i) h) :
    ∃ k2, M.loopS w k body h = .ok k2 h ∧ k2.Is1D w o v := by
  have hl := hk.length
  obtain ⟨k2, e, f⟩ := (Kernel.Filled.refl k v).loop (n := w) (body := body) (h := h) (R := fun i j => j = i) (by
    intro i k1 hi hf
    rw [hb i k1 hi (by
      rw [hf.no]
      · exact hk.coef i hi
      · rintro (q | ⟨i', a, b⟩)
        · exact q
        · omega) hf.length]
    exact hf.put (by omega) rfl h)
  refine ⟨k2, e, by rw [f.width, hk.width], by rw [f.offset, hk.offset], by rw [f.size, hk.size], fun i hi => ?_⟩
  exact f.yes i (Or.inr ⟨i, hi, rfl⟩) (by omega)

theorem idx2_inj {w x y x' y' : Nat} (hx : x < w) (hx' : x' < w) (e : y * w + x = y' * w + x') : x = x' ∧ y = y' := by
  have a : (y * w + x) % w = x := by rw [Nat.mul_comm, Nat.mul_add_mod, Nat.mod_eq_of_lt hx]
  have b : (y' * w + x') % w = x' := by rw [Nat.mul_comm, Nat.mul_add_mod, Nat.mod_eq_of_lt hx']
  have c : (y * w + x) / w = y := by
    rw [Nat.mul_comm, Nat.mul_add_div (by omega), Nat.div_eq_of_lt hx, Nat.add_zero]
  have d : (y' * w + x') / w = y' := by
    rw [Nat.mul_comm, Nat.mul_add_div (by omega), Nat.div_eq_of_lt hx', Nat.add_zero]
  rw [e] at a c
  exact ⟨by omega, by omega⟩

theorem idx2_lt {w x y : Nat} (hx : x < w) (hy : y < w) : y * w + x < w * w := by
  have := Nat.mul_le_mul_right w (Nat.succ_le_of_lt hy)
  rw [Nat.succ_mul] at this
  omega

theorem get1D {k : Kernel S} {w o : Nat} {c : Nat → S} (hk : k.Is1D w o c) {i : Nat} (hi : i < w) (h : Heap V) :
    k.get i h = .ok (c i) h := by
  unfold Kernel.get
  rw [hk.coef i hi]; rfl

theorem at1D {k : Kernel S} {w o : Nat} {c : Nat → S} (hk : k.Is1D w o c) {i : Nat} (hi : i < w) (h : Heap V) :
    Kernel1D.at' k i h = .ok (c i) h := by
  unfold Kernel1D.at'
  rw [if_neg (by rw [hk.size]; omega)]
  exact get1D hk hi h

theorem at2D {k : Kernel S} {w o : Nat} {c : Nat → Nat → S} (hk : k.Is2D w o c) (hw : w * w < P32) {x y : Nat} (hx : x < w)
    (hy : y < w) (h : Heap V) : Kernel2D.at' k x y h = .ok (c x y) h := by
  have := idx2_lt hx hy
  unfold Kernel2D.at' Kernel.get
  rw [hk.width, hk.size, wrap32_of_lt (by omega), if_neg (by omega), if_neg (by omega), hk.coef x y hx hy]
  rfl

/-- Setting all coefficients of a 2D kernel, in either order of the loops. -/
theorem fill2D {k : Kernel S} {w o : Nat} {c v : Nat → Nat → S} (hk : k.Is2D w o c) {body : Nat → Nat → Kernel S → M V (Kernel S)}
    {h : Heap V} {px py : Nat → Nat → Nat} (hp : ∀ i j, i < w → j < w → px i j < w ∧ py i j < w)
    (hall : ∀ x y, x < w → y < w → ∃ i j, i < w ∧ j < w ∧ px i j = x ∧ py i j = y)
    (hb : ∀ i j k1, i < w → j < w → k1.width = w → k1.data.size = w * w →
      body i j k1 h = k1.put (py i j * w + px i j) (v (px i j) (py i j)) h) :
    ∃ k2, M.loopS w k (fun i k => M.loopS w k (body i)) h = .ok k2 h ∧ k2.Is2D w o v := by
  have hl := hk.length
  let vv : Nat → S := fun n => v (n % w) (n / w)
  have hvv : ∀ x y, x < w → y < w → vv (y * w + x) = v x y := by
    intro x y hx hy
    show v ((y * w + x) % w) ((y * w + x) / w) = _
    rw [Nat.mul_comm, Nat.mul_add_mod, Nat.mod_eq_of_lt hx, Nat.mul_add_div (by omega), Nat.div_eq_of_lt hx, Nat.add_zero]
  obtain ⟨k2, e, f⟩ := (Kernel.Filled.refl k vv).loop (n := w) (body := fun i k => M.loopS w k (body i)) (h := h)
    (R := fun i n => ∃ j, j < w ∧ n = py i j * w + px i j) (by
    intro i k1 hi hf
    obtain ⟨k2, e, f⟩ := hf.loop (n := w) (body := body i) (h := h) (R := fun j n => n = py i j * w + px i j) (by
      intro j k2 hj hf2
      obtain ⟨a, b⟩ := hp i j hi hj
      rw [hb i j k2 hi hj (by rw [hf2.width, hk.width]) (by rw [hf2.size, hk.size])]
      exact hf2.put (by have := idx2_lt a b; omega) (hvv _ _ a b).symm h)
    exact ⟨k2, e, f⟩)
  refine ⟨k2, e, by rw [f.width, hk.width], by rw [f.offset, hk.offset], by rw [f.size, hk.size], fun x y hx hy => ?_⟩
  have := idx2_lt hx hy
  rw [f.yes (y * w + x) (Or.inr ?_) (by omega), hvv x y hx hy]
  obtain ⟨i, j, hi, hj, rfl, rfl⟩ := hall x y hx hy
  exact ⟨i, hi, j, hj, rfl⟩

/-! ### sums -/
section
variable {K : Type} [Field K] [LinearOrder K] [IsStrictOrderedRing K] [FloorRing K]

theorem sumF_congr {n : Nat} {f g : Nat → K} (h : ∀ i, i < n → f i = g i) : sumF n f = sumF n g := by
  induction n with
  | zero => rfl
  | succ n ih => unfold sumF; rw [ih (fun i hi => h i (by omega)), h n (by omega)]

theorem sumF_div (n : Nat) (f : Nat → K) (a : K) : sumF n (fun i => f i / a) = sumF n f / a := by
  induction n with
  | zero => simp [sumF]
  | succ n ih => unfold sumF; rw [ih, add_div]

theorem sumF_mul (n : Nat) (f : Nat → K) (a : K) : sumF n (fun i => a * f i) = a * sumF n f := by
  induction n with
  | zero => simp [sumF]
  | succ n ih => unfold sumF; rw [ih, mul_add]

theorem sumF_const (n : Nat) (a : K) : sumF n (fun _ => a) = n * a := by
  induction n with
  | zero => simp [sumF]
  | succ n ih => unfold sumF; rw [ih]; push_cast; ring

theorem sumF_pos {n : Nat} {f : Nat → K} (hn : 0 < n) (h : ∀ i, i < n → 0 < f i) : 0 < sumF n f := by
  induction n with
  | zero => omega
  | succ n ih =>
    unfold sumF
    rcases Nat.eq_zero_or_pos n with e | e
    · subst e; simp only [sumF, zero_add]; exact h 0 (by omega)
    · have := ih e (fun i hi => h i (by omega))
      have := h n (by omega)
      linarith

theorem sumF_append (m n : Nat) (f : Nat → K) : sumF (m + n) f = sumF m f + sumF n (fun i => f (m + i)) := by
  induction n with
  | zero => simp [sumF]
  | succ n ih =>
    show sumF (m + n) f + f (m + n) = sumF m f + (sumF n (fun i => f (m + i)) + f (m + n))
    rw [ih, add_assoc]

theorem sumF_rows (w m : Nat) (f : Nat → K) : sumF (m * w) f = sumF m (fun y => sumF w (fun x => f (y * w + x))) := by
  induction m with
  | zero => simp [sumF]
  | succ m ih => rw [Nat.succ_mul, sumF_append, ih]; rfl

theorem kernelSum_run (k : Kernel K) {n : Nat} {c : Nat → K} (hs : k.data.size = n)
    (hc : ∀ i, i < n → k.data.data[i]? = some (c i)) (h : Heap V) : k.sumK h = .ok (sumF n c) h := by
  unfold Kernel.sumK Kernel.sum
  rw [hs]
  suffices ∀ m, m ≤ n → M.loopS m (0 : K) (fun i total => do
    let v ← k.get i
    match (some (total + v) : Option K) with
    | some t => pure t
    | none => M.ub) h = .ok (sumF m c) h from this n (Nat.le_refl n)
  intro m hm
  induction m with
  | zero => rfl
  | succ m ih =>
    refine (M.bind_ok (ih (by omega))).trans ?_
    refine (M.bind_ok (a := c m) (h' := h) ?_).trans rfl
    unfold Kernel.get
    rw [hc m (by omega)]; rfl

/-- `normalize` scales the first `width` coefficients by the sum of all. -/
theorem normalize_run (k : Kernel K) {w o n : Nat} {c : Nat → K} (hw : k.width = w) (hs : k.data.size = n)
    (hl : w ≤ k.data.data.length)
    (hc : ∀ i, i < n → k.data.data[i]? = some (c i)) (hwn : w ≤ n) (h0 : sumF n c ≠ 0) (h : Heap V) :
    ∃ k2, FactoryKernel.normalize k h = .ok k2 h ∧ k2.width = w ∧ k2.offset = k.offset ∧ k2.data.size = n ∧
      (∀ i, i < w → k2.data.data[i]? = some (c i / sumF n c)) ∧ (∀ i, w ≤ i → k2.data.data[i]? = k.data.data[i]?) := by
  unfold FactoryKernel.normalize
  rw [M.bind_ok (kernelSum_run k hs hc h), hw]
  obtain ⟨k2, e, f⟩ := (Kernel.Filled.refl k (fun i => c i / sumF n c)).loop (n := w) (h := h)
    (body := fun i k => do
      let v ← k.get i
      if sumF n c = 0 then M.ub else k.put i (v / sumF n c)) (R := fun i j => j = i) (by
    intro i k1 hi hf
    have : k1.get i h = .ok (c i) h := by
      unfold Kernel.get
      rw [hf.no, hc i (by omega)]
      · rfl
      · rintro (q | ⟨i', a, b⟩)
        · exact q
        · omega
    rw [M.bind_ok this, if_neg h0]
    exact hf.put (by omega) rfl h)
  refine ⟨k2, e, by rw [f.width, hw], f.offset, by rw [f.size, hs], fun i hi => ?_, fun i hi => ?_⟩
  · exact f.yes i (Or.inr ⟨i, hi, rfl⟩) (by omega)
  · refine f.no i ?_
    rintro (q | ⟨i', a, b⟩)
    · exact q
    · omega

/-- The maximum/minimum scans. -/
theorem scan_best {T : Type} {k : Kernel T} {n : Nat} {c : Nat → T} (hs : k.data.size = n) (hn : 0 < n)
    (hc : ∀ i, i < n → k.data.data[i]? = some (c i)) (pre : T → T) (better : T → T → Bool) (R : T → T → Prop)
    (hrefl : ∀ a, R a a) (htrans : ∀ a b c, R a b → R b c → R a c)
    (hbet : ∀ a b, better a b = true → R a b) (hnot : ∀ a b, better a b = false → R b a) (h : Heap V) :
    ∃ m, k.scanElems pre better h = .ok m h ∧ (∃ i, i < n ∧ pre (c i) = m) ∧ ∀ i, i < n → R m (pre (c i)) := by
  have hget : ∀ i, i < n → k.get i h = .ok (c i) h := by
    intro i hi
    unfold Kernel.get
    rw [hc i hi]; rfl
  have hat : Kernel1D.at' k 0 h = .ok (c 0) h := by
    unfold Kernel1D.at'
    rw [if_neg (by omega)]
    exact hget 0 hn
  unfold Kernel.scanElems
  rw [M.bind_ok hat, hs]
  suffices ∀ m, m + 1 ≤ n → ∃ b, M.loopS m (pre (c 0)) (fun i best => do
      let a ← k.get (1 + i)
      pure (if better (pre a) best then pre a else best)) h = .ok b h ∧ (∃ i, i < m + 1 ∧ pre (c i) = b) ∧
      ∀ i, i < m + 1 → R b (pre (c i)) by
    obtain ⟨b, e1, e2, e3⟩ := this (n-1) (by omega)
    rw [show n - 1 + 1 = n by omega] at e2 e3
    exact ⟨b, e1, e2, e3⟩
  intro m hm
  induction m with
  | zero => exact ⟨_, rfl, ⟨0, by omega, rfl⟩, fun i hi => by
      have : i = 0 := by omega
      subst this; exact hrefl _⟩
  | succ m ih =>
    obtain ⟨b, e1, ⟨i0, hi0, e2⟩, e3⟩ := ih (by omega)
    refine ⟨if better (pre (c (1 + m))) b then pre (c (1 + m)) else b, ?_, ?_, ?_⟩
    · refine (M.bind_ok e1).trans ?_
      exact (M.bind_ok (hget (1 + m) (by omega))).trans rfl
    · by_cases q : better (pre (c (1 + m))) b = true
      · rw [if_pos q]; exact ⟨1 + m, by omega, rfl⟩
      · rw [if_neg q]; exact ⟨i0, by omega, e2⟩
    · intro i hi
      by_cases q : better (pre (c (1 + m))) b = true
      · rw [if_pos q]
        by_cases e : i = 1 + m
        · subst e; exact hrefl _
        · exact htrans _ _ _ (hbet _ _ q) (e3 i (by omega))
      · rw [if_neg q]
        by_cases e : i = 1 + m
        · subst e; exact hnot _ _ (by simpa using q)
        · exact e3 i (by omega)

theorem absMax_run {k : Kernel K} {n : Nat} {c : Nat → K} (hs : k.data.size = n) (hn : 0 < n)
    (hc : ∀ i, i < n → k.data.data[i]? = some (c i)) (h : Heap V) :
    ∃ m, k.elementAbsMax h = .ok m h ∧ IsAbsMax n c m :=
  scan_best hs hn hc (fun a => |a|) _ (fun a b => b ≤ a) (fun a => le_refl a) (fun a b c h1 h2 => le_trans h2 h1)
    (fun a b hb => le_of_lt (by simpa using hb)) (fun a b hb => by simpa using hb) h

theorem absMin_run {k : Kernel K} {n : Nat} {c : Nat → K} (hs : k.data.size = n) (hn : 0 < n)
    (hc : ∀ i, i < n → k.data.data[i]? = some (c i)) (h : Heap V) :
    ∃ m, k.elementAbsMin h = .ok m h ∧ IsAbsMin n c m :=
  scan_best hs hn hc (fun a => |a|) _ (fun a b => a ≤ b) (fun a => le_refl a) (fun a b c h1 h2 => le_trans h1 h2)
    (fun a b hb => le_of_lt (by simpa using hb)) (fun a b hb => by simpa using hb) h

end
end Boof
