import Mathlib.Data.Rat.Floor
import Verif.Proofs.Kernel
import Verif.Proofs.Arith
/-
C71: the extrema of a kernel.
-/
namespace Boof
variable {V K : Type} [Field K] [LinearOrder K] [IsStrictOrderedRing K] [FloorRing K]

/-- `m` is the largest (smallest) of the `n` coefficients `c`: it is one of them, and none is larger (smaller). -/
def IsLargest {T : Type} [LE T] (n : Nat) (c : Nat → T) (m : T) : Prop := (∃ i, i < n ∧ c i = m) ∧ ∀ i, i < n → c i ≤ m
def IsSmallest {T : Type} [LE T] (n : Nat) (c : Nat → T) (m : T) : Prop := (∃ i, i < n ∧ c i = m) ∧ ∀ i, i < n → m ≤ c i

/-- Floating point kernels (without NaN), 1D or 2D, with at least one coefficient; `c` are the coefficients in storage order. -/
theorem C71_extrema {k : Kernel K} {n : Nat} {c : Nat → K} (hs : k.data.size = n) (hn : 0 < n)
    (hc : ∀ i, i < n → k.data.data[i]? = some (c i)) (h : Heap V) :
    (∃ m, k.elementMax h = .ok m h ∧ IsLargest n c m) ∧ (∃ m, k.elementMin h = .ok m h ∧ IsSmallest n c m) ∧
    (∃ m, k.elementAbsMax h = .ok m h ∧ IsLargest n (fun i => |c i|) m) ∧
    (∃ m, k.elementAbsMin h = .ok m h ∧ IsSmallest n (fun i => |c i|) m) := by
  refine ⟨?_, ?_, absMax_run hs hn hc h, absMin_run hs hn hc h⟩
  · exact scan_best hs hn hc id _ (fun a b => b ≤ a) (fun a => le_refl a) (fun a b c h1 h2 => le_trans h2 h1)
      (fun a b hb => le_of_lt (by simpa using hb)) (fun a b hb => by simpa using hb) h
  · exact scan_best hs hn hc id _ (fun a b => a ≤ b) (fun a => le_refl a) (fun a b c h1 h2 => le_trans h1 h2)
      (fun a b hb => le_of_lt (by simpa using hb)) (fun a b hb => by simpa using hb) h

example (h : Heap V) : ∃ m, (⟨3, 1, ⟨[-4, 1, 3], 3, 0, true⟩⟩ : Kernel Rat).elementAbsMax h = .ok m h ∧ IsLargest 3
    (fun i => |if i = 0 then (-4 : Rat) else if i = 1 then 1 else 3|) m :=
  (C71_extrema (n := 3) rfl (by decide) (fun i hi => by rcases i with _ | _ | _ | i <;> first | rfl | omega) h).2.2.1

/-- Integer kernels. -/
theorem C71_extrema_int {k : Kernel Int} {n : Nat} {c : Nat → Int} (hs : k.data.size = n) (hn : 0 < n)
    (hc : ∀ i, i < n → k.data.data[i]? = some (c i)) (h : Heap V) :
    (∃ m, k.elementMaxInt h = .ok m h ∧ IsLargest n c m) ∧ (∃ m, k.elementMinInt h = .ok m h ∧ IsSmallest n c m) := by
  refine ⟨?_, ?_⟩
  · exact scan_best hs hn hc id _ (fun a b => b ≤ a) (fun a => le_refl a) (fun a b c h1 h2 => le_trans h2 h1)
      (fun a b hb => le_of_lt (by simpa using hb)) (fun a b hb => by simpa using hb) h
  · exact scan_best hs hn hc id _ (fun a b => a ≤ b) (fun a => le_refl a) (fun a b c h1 h2 => le_trans h1 h2)
      (fun a b hb => le_of_lt (by simpa using hb)) (fun a b hb => by simpa using hb) h

/-- `std::abs` of a coefficient whose negation is representable. -/
theorem absIn_run {t : IntTy} (ht : 0 < t.bits) {a : Int} (h1 : -t.hi ≤ a) (h2 : a ≤ t.hi) (h : Heap V) :
    (absIn t a : M V Int) h = .ok |a| h := by
  have e : (if a < 0 then -a else a) = |a| := by
    rcases Int.lt_or_le a 0 with c | c
    · rw [if_pos c, abs_of_neg c]
    · rw [if_neg (by omega), abs_of_nonneg c]
  have hr : 0 ≤ |a| ∧ |a| ≤ t.hi := ⟨abs_nonneg a, abs_le.mpr ⟨h1, h2⟩⟩
  unfold absIn
  split
  · rw [e, IntTy.cast_of_inRange ht ⟨?_, hr.2⟩]
    · rfl
    · have hp : 0 ≤ ((2 ^ (t.bits - 1) : Nat) : Int) := Int.natCast_nonneg _
      unfold IntTy.lo; split
      · exact le_trans (neg_nonpos.mpr hp) hr.1
      · exact hr.1
  · split
    · rename_i c
      rw [if_pos (by omega), abs_of_neg c]; rfl
    · rename_i c
      rw [abs_of_nonneg (by omega)]; rfl

/-- The scans for the largest and smallest magnitude. -/
theorem scanAbs_run {t : IntTy} {k : Kernel Int} {n : Nat} {c : Nat → Int} (pre : Int → Int) (hs : k.data.size = n) (hn : 0 < n)
    (hc : ∀ i, i < n → k.data.data[i]? = some (c i)) (ha : ∀ i, i < n → ∀ h : Heap V, (absIn t (c i) : M V Int) h = .ok (pre (c i)) h)
    (better : Int → Int → Bool) (h : Heap V) :
    k.scanAbsInt t better h = k.scanElems pre better h := by
  have hget : ∀ i, i < n → k.get i h = .ok (c i) h := by
    intro i hi
    unfold Kernel.get
    rw [hc i hi]; rfl
  have hat : Kernel1D.at' k 0 h = .ok (c 0) h := by
    unfold Kernel1D.at'
    rw [if_neg (by omega)]
    exact hget 0 hn
  unfold Kernel.scanAbsInt Kernel.scanElems
  rw [M.bind_ok hat, M.bind_ok (ha 0 hn h), M.bind_ok hat, hs]
  suffices ∀ m, m + 1 ≤ n → ∃ b, M.loopS m (pre (c 0)) (fun i best => do
      let a ← k.get (1 + i)
      let a ← absIn t a
      pure (if better a best then a else best)) h = .ok b h ∧ M.loopS m (pre (c 0)) (fun i best => do
      let a ← k.get (1 + i)
      pure (if better (pre a) best then (pre a) else best)) h = .ok b h by
    obtain ⟨b, e1, e2⟩ := this (n-1) (by omega)
    rw [e1, e2]
  intro m hm
  induction m with
  | zero => exact ⟨_, rfl, rfl⟩
  | succ m ih =>
    obtain ⟨b, e1, e2⟩ := ih (by omega)
    refine ⟨if better (pre (c (1 + m))) b then (pre (c (1 + m))) else b, ?_, ?_⟩
    · exact (M.bind_ok e1).trans ((M.bind_ok (hget (1 + m) (by omega))).trans ((M.bind_ok (ha (1 + m) (by omega) h)).trans rfl))
    · exact (M.bind_ok e2).trans ((M.bind_ok (hget (1 + m) (by omega))).trans rfl)

/-- Magnitudes of integer kernels.  MISSING for the full property: a coefficient equal to the most negative number of its
type, see `C71_abs_refuted`. -/
theorem C71_abs_int_partial {t : IntTy} (ht : 0 < t.bits) {k : Kernel Int} {n : Nat} {c : Nat → Int} (hs : k.data.size = n)
    (hn : 0 < n) (hc : ∀ i, i < n → k.data.data[i]? = some (c i)) (hr : ∀ i, i < n → -t.hi ≤ c i ∧ c i ≤ t.hi) (h : Heap V) :
    (∃ m, k.elementAbsMaxInt t h = .ok m h ∧ IsLargest n (fun i => |c i|) m) ∧
    (∃ m, k.elementAbsMinInt t h = .ok m h ∧ IsSmallest n (fun i => |c i|) m) := by
  have ha : ∀ i, i < n → ∀ h : Heap V, (absIn t (c i) : M V Int) h = .ok |c i| h :=
    fun i hi h => absIn_run ht (hr i hi).1 (hr i hi).2 h
  unfold Kernel.elementAbsMaxInt Kernel.elementAbsMinInt
  rw [scanAbs_run (fun a => |a|) hs hn hc ha, scanAbs_run (fun a => |a|) hs hn hc ha]
  refine ⟨?_, ?_⟩
  · exact scan_best hs hn hc (fun a => |a|) _ (fun a b => b ≤ a) (fun a => le_refl a) (fun a b c h1 h2 => le_trans h2 h1)
      (fun a b hb => le_of_lt (by simpa using hb)) (fun a b hb => by simpa using hb) h
  · exact scan_best hs hn hc (fun a => |a|) _ (fun a b => a ≤ b) (fun a => le_refl a) (fun a b c h1 h2 => le_trans h1 h2)
      (fun a b hb => le_of_lt (by simpa using hb)) (fun a b hb => by simpa using hb) h

example (h : Heap V) : ∃ m, (⟨3, 1, ⟨[-4, 1, 3], 3, 0, true⟩⟩ : Kernel Int).elementAbsMaxInt S16 h = .ok m h ∧ IsLargest 3
    (fun i => |([-4, 1, 3] : List Int).getD i 0|) m :=
  (C71_abs_int_partial (n := 3) (by decide) rfl (by decide) (fun i hi => by rcases i with _ | _ | _ | i <;> first | rfl | omega)
    (fun i hi => by rcases i with _ | _ | _ | i <;> first | decide | omega) h).1

/-- With the most negative 16 bit number the largest magnitude comes out negative, with the most negative 32 bit number the
call is undefined behaviour. -/
theorem C71_abs_refuted (h : Heap V) :
    (⟨1, 0, ⟨[-32768], 1, 0, true⟩⟩ : Kernel Int).elementAbsMaxInt S16 h = .ok (-32768) h ∧
    (⟨1, 0, ⟨[-2147483648], 1, 0, true⟩⟩ : Kernel Int).elementAbsMaxInt S32 h = .ub := ⟨rfl, rfl⟩

/-- A kernel without coefficients has no extrema: the calls throw. -/
theorem C71_empty (k : Kernel K) (hs : k.data.size = 0) (h : Heap V) :
    k.elementMax h = .throw h ∧ k.elementMin h = .throw h ∧ k.elementAbsMax h = .throw h ∧ k.elementAbsMin h = .throw h := by
  have hat : Kernel1D.at' k 0 h = .throw h := by
    unfold Kernel1D.at'
    rw [if_pos (by omega)]; rfl
  exact ⟨M.bind_throw hat, M.bind_throw hat, M.bind_throw hat, M.bind_throw hat⟩

example : (⟨0, 0, ⟨[], 0, 0, true⟩⟩ : Kernel Rat).data.size = 0 := rfl

end Boof
