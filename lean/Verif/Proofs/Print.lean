import Verif.Spec.Print
import Verif.Proofs.Image
import Verif.Proofs.BlockMinMax
namespace Boof
open M
variable {V S : Type}

theorem foldl_text {α : Type} (t : α → Text) (l : List α) (s : Text) :
    l.foldl (fun s i => s ++ t i) s = s ++ l.flatMap t := by
  induction l generalizing s with
  | nil => simp
  | cons a l ih => simp [ih]

/-- A loop which prints. -/
theorem loopS_text {n : Nat} {body : Nat → Text → M V Text} {h : Heap V} (t : Nat → Text)
    (hb : ∀ i s, i < n → body i s h = .ok (s ++ t i) h) (s : Text) :
    M.loopS n s body h = .ok (s ++ (List.range n).flatMap t) h := by
  rw [M.loopS_pure (fun s i => s ++ t i) hb, foldl_text]

theorem fmtDec_nat {n : Nat} (hn : n < 2147483648) : fmtDec (toS32 n) = Nat.toDigits 10 n := by
  unfold fmtDec
  rw [toS32_of_lt hn, if_neg (by omega)]
  rfl

/-! ### Reading numbers back -/

theorem digitOf_digitChar {d : Nat} (hd : d < 16) : digitOf d.digitChar = d := by
  have : ∀ d : Fin 16, digitOf d.1.digitChar = d.1 := by decide
  exact this ⟨d, hd⟩

theorem numberOf_toDigits {b : Nat} (hb : 1 < b) (hb' : b ≤ 16) (n : Nat) : numberOf b (Nat.toDigits b n) = n := by
  induction n using Nat.strong_induction_on with
  | _ n ih =>
    rw [Nat.toDigits_eq_if hb]
    by_cases h : n < b
    · rw [if_pos h]
      unfold numberOf
      simp only [List.foldl_cons, List.foldl_nil, Nat.zero_mul, Nat.zero_add]
      exact digitOf_digitChar (by omega)
    · rw [if_neg h]
      have hlt : n / b < n := Nat.div_lt_self (by omega) hb
      have := ih (n / b) hlt
      unfold numberOf at *
      rw [List.foldl_append, this]
      simp only [List.foldl_cons, List.foldl_nil]
      rw [digitOf_digitChar (by have := Nat.mod_lt n (show b > 0 by omega); omega), Nat.mul_comm]
      exact Nat.div_add_mod n b

theorem toDigits_inj {b m n : Nat} (hb : 1 < b) (hb' : b ≤ 16) (e : Nat.toDigits b m = Nat.toDigits b n) : m = n := by
  rw [← numberOf_toDigits hb hb' m, e, numberOf_toDigits hb hb' n]

theorem numberOf_zeros (b k : Nat) (t : Text) : numberOf b (List.replicate k '0' ++ t) = numberOf b t := by
  unfold numberOf
  rw [List.foldl_append]
  congr 1
  induction k with
  | zero => rfl
  | succ k ih =>
    rw [List.replicate_succ, List.foldl_cons, Nat.zero_mul, Nat.zero_add, show digitOf '0' = 0 by decide]
    exact ih

theorem numberOf_fmtHex (n : Nat) : numberOf 16 (fmtHex n) = n := by
  unfold fmtHex
  rw [numberOf_zeros, numberOf_toDigits (by decide) (by decide)]

/-- Digits are none of the other characters that are printed. -/
def IsHex (c : Char) : Prop := c ∈ "0123456789abcdef".toList

theorem toDigits_hex {b n : Nat} (hb : 1 < b) (hb' : b ≤ 16) : ∀ c, c ∈ Nat.toDigits b n → IsHex c := by
  have hd : ∀ d : Fin 16, IsHex d.1.digitChar := by unfold IsHex; decide
  induction n using Nat.strong_induction_on with
  | _ n ih =>
    rw [Nat.toDigits_eq_if hb]
    by_cases h : n < b
    · rw [if_pos h]
      intro c hc
      rw [List.mem_singleton.1 hc]
      exact hd ⟨n, by omega⟩
    · rw [if_neg h]
      intro c hc
      rcases List.mem_append.1 hc with hc | hc
      · exact ih _ (Nat.div_lt_self (by omega) hb) c hc
      · rw [List.mem_singleton.1 hc]
        exact hd ⟨n % b, by have := Nat.mod_lt n (show b > 0 by omega); omega⟩

theorem fmtHex_hex {n : Nat} : ∀ c, c ∈ fmtHex n → IsHex c := fun c hc => by
  rcases List.mem_append.1 hc with hc | hc
  · rw [List.eq_of_mem_replicate hc]; unfold IsHex; decide
  · exact toDigits_hex (by decide) (by decide) c hc

/-- Two texts which start with words free of a separator. -/
theorem split_at {α : Type} {s : α} {a b r1 r2 : List α} (ha : s ∉ a) (hb : s ∉ b) (e : a ++ s :: r1 = b ++ s :: r2) :
    a = b ∧ r1 = r2 := by
  induction a generalizing b with
  | nil =>
    cases b with
    | nil => simp at e; exact ⟨rfl, e⟩
    | cons y b => simp at e; exact absurd (by rw [e.1]; exact List.mem_cons_self) hb
  | cons x a ih =>
    cases b with
    | nil => simp at e; exact absurd (by rw [e.1]; exact List.mem_cons_self) ha
    | cons y b =>
      simp only [List.cons_append, List.cons.injEq] at e
      obtain ⟨h1, h2⟩ := ih (fun h => ha (List.mem_cons_of_mem _ h)) (fun h => hb (List.mem_cons_of_mem _ h)) e.2
      exact ⟨by rw [e.1, h1], h2⟩

/-- Words each followed by a separator can be read back. -/
theorem words_inj {α : Type} {s : α} {n : Nat} {t1 t2 : Nat → List α} {r1 r2 : List α} (h1 : ∀ i, i < n → s ∉ t1 i)
    (h2 : ∀ i, i < n → s ∉ t2 i)
    (e : (List.range n).flatMap (fun i => t1 i ++ [s]) ++ r1 = (List.range n).flatMap (fun i => t2 i ++ [s]) ++ r2) :
    (∀ i, i < n → t1 i = t2 i) ∧ r1 = r2 := by
  induction n generalizing r1 r2 with
  | zero => exact ⟨fun i hi => by omega, by simpa using e⟩
  | succ n ih =>
    simp only [List.range_succ, List.flatMap_append, List.flatMap_cons, List.flatMap_nil, List.append_nil, List.append_assoc] at e
    obtain ⟨a, b⟩ := ih (fun i hi => h1 i (by omega)) (fun i hi => h2 i (by omega)) e
    obtain ⟨c, d⟩ := split_at (h1 n (by omega)) (h2 n (by omega)) b
    refine ⟨fun i hi => ?_, d⟩
    by_cases hin : i = n
    · rw [hin]; exact c
    · exact a i (by omega)

/-- Words each preceded by a separator are words each followed by one. -/
theorem words_shift {α : Type} (s : α) (n : Nat) (t : Nat → List α) (r : List α) :
    (List.range n).flatMap (fun i => s :: t i) ++ s :: r = s :: ((List.range n).flatMap (fun i => t i ++ [s]) ++ r) := by
  induction n generalizing r with
  | zero => rfl
  | succ n ih =>
    simp only [List.range_succ, List.flatMap_append, List.flatMap_cons, List.flatMap_nil, List.append_nil, List.append_assoc,
      List.cons_append, List.nil_append]
    rw [ih]

theorem count_words {n : Nat} {t : Nat → Text} {s : Char} (h : ∀ i, i < n → s ∉ t i) :
    ((List.range n).flatMap (fun i => s :: t i)).count s = n := by
  induction n with
  | zero => rfl
  | succ n ih =>
    simp only [List.range_succ, List.flatMap_append, List.flatMap_cons, List.flatMap_nil, List.append_nil, List.count_append,
      List.count_cons_self]
    rw [ih (fun i hi => h i (by omega)), List.count_eq_zero.2 (h n (by omega))]

theorem flatMap_congr {α β : Type} {l : List α} {f g : α → List β} (h : ∀ a, a ∈ l → f a = g a) : l.flatMap f = l.flatMap g := by
  induction l with
  | nil => rfl
  | cons a l ih =>
    rw [List.flatMap_cons, List.flatMap_cons, h a (List.mem_cons_self ..), ih (fun b hb => h b (List.mem_cons_of_mem _ hb))]

/-- Printed numbers consist of digits and a sign. -/
def IsNum (c : Char) : Prop := c ∈ "-0123456789abcdef".toList

theorem IsHex.num {c : Char} (h : IsHex c) : IsNum c := List.mem_cons_of_mem _ h

theorem fmtDec_num {v : Int} : ∀ c, c ∈ fmtDec v → IsNum c := fun c hc => by
  unfold fmtDec at hc
  split at hc
  · rcases List.mem_cons.1 hc with hc | hc
    · rw [hc]; unfold IsNum; decide
    · exact (toDigits_hex (by decide) (by decide) c hc).num
  · exact (toDigits_hex (by decide) (by decide) c hc).num

theorem notin_of_num {t : Text} (h : ∀ c, c ∈ t → IsNum c) {s : Char} (hs : s ∉ "-0123456789abcdef".toList) : s ∉ t :=
  fun hm => hs (h s hm)

theorem fmtDec_inj {a b : Int} (e : fmtDec a = fmtDec b) : a = b := by
  have hm : ∀ n, '-' ∉ Nat.toDigits 10 n := fun n hm => by
    have := toDigits_hex (b := 10) (by decide) (by decide) _ hm
    unfold IsHex at this; revert this; decide
  unfold fmtDec at e
  by_cases ha : a < 0 <;> by_cases hb : b < 0
  · rw [if_pos ha, if_pos hb] at e
    have := toDigits_inj (by decide) (by decide) (List.cons.inj e).2
    omega
  · rw [if_pos ha, if_neg hb] at e
    exact absurd (by rw [← e]; exact List.mem_cons_self ..) (hm b.toNat)
  · rw [if_neg ha, if_pos hb] at e
    exact absurd (by rw [e]; exact List.mem_cons_self ..) (hm a.toNat)
  · rw [if_neg ha, if_neg hb] at e
    have := toDigits_inj (by decide) (by decide) e
    omega

theorem digits_num (n : Nat) : ∀ c, c ∈ Nat.toDigits 10 n → IsNum c :=
  fun c hc => (toDigits_hex (by decide) (by decide) c hc).num

/-- `imageText` with the characters spelled out. -/
theorem imageText_chars (w ht : Nat) (t : Nat → Nat → Text) : imageText w ht t =
    "image ".toList ++ (Nat.toDigits 10 w ++ ' ' :: 'x' :: ' ' :: (Nat.toDigits 10 ht ++ '\n' ::
      ((List.range ht).flatMap (fun y => ('[' :: ' ' :: ((List.range w).flatMap (fun x => t x y ++ [' ']) ++ [']'])) ++ ['\n']) ++ ['\n']))) := by
  unfold imageText
  simp only [show ("\n".toList : Text) = ['\n'] from rfl, show (" x ".toList : Text) = [' ', 'x', ' '] from rfl,
    show ("[ ".toList : Text) = ['[', ' '] from rfl, show ("]\n".toList : Text) = [']', '\n'] from rfl,
    show (" ".toList : Text) = [' '] from rfl, List.append_assoc, List.cons_append, List.nil_append]

theorem imageText_inj {w ht w' ht' : Nat} {t t' : Nat → Nat → Text} (h1 : ∀ x y c, c ∈ t x y → IsNum c)
    (h2 : ∀ x y c, c ∈ t' x y → IsNum c) (e : imageText w ht t = imageText w' ht' t') :
    w = w' ∧ ht = ht' ∧ ∀ x y, x < w → y < ht → t x y = t' x y := by
  rw [imageText_chars, imageText_chars] at e
  have e := List.append_cancel_left e
  obtain ⟨ew, e⟩ := split_at (notin_of_num (digits_num _) (by decide)) (notin_of_num (digits_num _) (by decide)) e
  have e := (List.cons.inj (List.cons.inj e).2).2
  obtain ⟨eh, e⟩ := split_at (notin_of_num (digits_num _) (by decide)) (notin_of_num (digits_num _) (by decide)) e
  have ew := toDigits_inj (by decide) (by decide) ew
  have eh := toDigits_inj (by decide) (by decide) eh
  refine ⟨ew, eh, fun x y hx hy => ?_⟩
  rw [← ew, ← eh] at e
  have hrow : ∀ (p : Nat → Nat → Text), (∀ x y c, c ∈ p x y → IsNum c) → ∀ y,
      '\n' ∉ '[' :: ' ' :: ((List.range w).flatMap (fun x => p x y ++ [' ']) ++ [']']) := by
    intro p hp y hm
    simp only [List.mem_cons, List.mem_append, List.mem_flatMap, List.not_mem_nil, or_false] at hm
    rcases hm with hm | hm | ⟨x, -, hm | hm⟩ | hm
    · exact absurd hm (by decide)
    · exact absurd hm (by decide)
    · exact notin_of_num (hp x y) (by decide) hm
    · exact absurd hm (by decide)
    · exact absurd hm (by decide)
  obtain ⟨er, -⟩ := words_inj (fun y _ => hrow t h1 y) (fun y _ => hrow t' h2 y) e
  have er := (List.cons.inj (List.cons.inj (er y hy)).2).2
  exact (words_inj (s := ' ') (t1 := fun x => t x y) (t2 := fun x => t' x y) (fun x _ => notin_of_num (h1 x y) (by decide))
    (fun x _ => notin_of_num (h2 x y) (by decide)) er).1 x hx

theorem kernel1DText_inj {w w' : Nat} {t t' : Nat → Text} (h1 : ∀ x c, c ∈ t x → IsNum c)
    (h2 : ∀ x c, c ∈ t' x → IsNum c) (e : kernel1DText w t = kernel1DText w' t') :
    w = w' ∧ ∀ i, i < w → t i = t' i := by
  unfold kernel1DText at e
  simp only [List.append_assoc] at e
  have e := List.append_cancel_left e
  simp only [show (" ]\n".toList : Text) = [' ', ']', '\n'] from rfl, show (" ".toList : Text) = [' '] from rfl, List.cons_append,
    List.nil_append] at e
  have ew : w = w' := by
    have := congrArg (List.count ' ') e
    rw [List.count_append, List.count_append, count_words (fun i _ => notin_of_num (h1 i) (by decide)),
      count_words (fun i _ => notin_of_num (h2 i) (by decide))] at this
    exact Nat.add_right_cancel this
  subst ew
  refine ⟨rfl, ?_⟩
  rw [words_shift, words_shift] at e
  exact (words_inj (fun x _ => notin_of_num (h1 x) (by decide)) (fun x _ => notin_of_num (h2 x) (by decide)) (List.cons.inj e).2).1

theorem kernel2DText_inj {w w' o o' : Nat} {t t' : Nat → Nat → Text} (h1 : ∀ x y c, c ∈ t x y → IsNum c)
    (h2 : ∀ x y c, c ∈ t' x y → IsNum c) (e : kernel2DText w o t = kernel2DText w' o' t') :
    w = w' ∧ o = o' ∧ ∀ x y, x < w → y < w → t x y = t' x y := by
  have hc : ∀ (w o : Nat) (t : Nat → Nat → Text), kernel2DText w o t = "Kernel2D{ offset=".toList ++ (Nat.toDigits 10 o ++ ',' ::
      (" width=".toList ++ (Nat.toDigits 10 w ++ ' ' :: '}' :: '\n' ::
      ((List.range w).flatMap (fun y => (' ' :: ((List.range w).flatMap (fun x => ' ' :: t x y))) ++ ['\n']) ++ [])))) := by
    intro w o t
    unfold kernel2DText
    simp only [show ("\n".toList : Text) = ['\n'] from rfl, show (", width=".toList : Text) = ',' :: " width=".toList from rfl,
      show (" }\n".toList : Text) = [' ', '}', '\n'] from rfl,
      show (" ".toList : Text) = [' '] from rfl, List.append_assoc, List.cons_append, List.nil_append, List.append_nil]
  rw [hc, hc] at e
  have e := List.append_cancel_left e
  obtain ⟨eo, e⟩ := split_at (notin_of_num (digits_num _) (by decide)) (notin_of_num (digits_num _) (by decide)) e
  have e := List.append_cancel_left e
  obtain ⟨ew, e⟩ := split_at (notin_of_num (digits_num _) (by decide)) (notin_of_num (digits_num _) (by decide)) e
  have ew := toDigits_inj (by decide) (by decide) ew
  have eo := toDigits_inj (by decide) (by decide) eo
  refine ⟨ew, eo, fun x y hx hy => ?_⟩
  have e := (List.cons.inj (List.cons.inj e).2).2
  rw [← ew] at e
  have hrow : ∀ (p : Nat → Nat → Text), (∀ x y c, c ∈ p x y → IsNum c) → ∀ y,
      '\n' ∉ ' ' :: ((List.range w).flatMap (fun x => ' ' :: p x y)) := by
    intro p hp y hm
    simp only [List.mem_cons, List.mem_flatMap] at hm
    rcases hm with hm | ⟨x, -, hm | hm⟩
    · exact absurd hm (by decide)
    · exact absurd hm (by decide)
    · exact notin_of_num (hp x y) (by decide) hm
  obtain ⟨er, -⟩ := words_inj (fun y _ => hrow t h1 y) (fun y _ => hrow t' h2 y) e
  have er := (List.cons.inj (er y hy)).2
  have er : (List.range w).flatMap (fun x => ' ' :: t x y) ++ [' '] = (List.range w).flatMap (fun x => ' ' :: t' x y) ++ [' '] := by
    rw [er]
  rw [words_shift, words_shift] at er
  exact (words_inj (t1 := fun x => t x y) (t2 := fun x => t' x y) (fun x _ => notin_of_num (h1 x y) (by decide))
    (fun x _ => notin_of_num (h2 x y) (by decide)) (List.cons.inj er).2).1 x hx

end Boof
