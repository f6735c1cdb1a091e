import Verif.Spec.Vsop
import Mathlib.Tactic.Linarith
import Mathlib.Tactic.Ring
import Mathlib.Data.List.Forall2
import Mathlib.Data.List.GetD

namespace Verif.Lemmas

open Verif.Model.Vsop Verif.Spec.Vsop

theorem splitLines_noNewline {l : Line} (h : (10 : UInt8) ∉ l) : splitLines l = [l] := by
  induction l with
  | nil => rfl
  | cons b bs ih =>
    simp only [List.mem_cons, not_or] at h
    rw [splitLines, if_neg (fun e => h.1 e.symm), ih h.2]

theorem splitLines_append {l : Line} (h : (10 : UInt8) ∉ l) (rest : List UInt8) :
    splitLines (l ++ 10 :: rest) = l :: splitLines rest := by
  induction l with
  | nil => simp [splitLines]
  | cons b bs ih =>
    simp only [List.mem_cons, not_or] at h
    rw [List.cons_append, splitLines, if_neg (fun e => h.1 e.symm), ih h.2]

theorem splitLines_join : ∀ {ls : List Line}, ls ≠ [] → (∀ l ∈ ls, (10 : UInt8) ∉ l) → splitLines (joinLines ls) = ls
  | [], h, _ => absurd rfl h
  | [l], _, h => by rw [joinLines]; exact splitLines_noNewline (h l (by simp))
  | l :: l' :: ls, _, h => by
    rw [joinLines, splitLines_append (h l (by simp)), splitLines_join (by simp) (fun x hx => h x (by simp [List.mem_cons.1 hx]))]
    simp

variable {F : Type}

theorem readTerms_ok (lib : Lib F) {ts : List (Term F)} {ls : List Line} (h : List.Forall₂ (IsTerm lib) ts ls) :
    ∀ acc : List (Term F), acc.length + ts.length ≤ 2047 → readTerms lib ls acc = .ok (acc ++ ts) := by
  induction h with
  | nil => intro acc _; simp [readTerms]
  | @cons t l ts ls ht _ ih =>
    intro acc hl
    obtain ⟨h1, h2, h3, h4⟩ := ht
    simp only [List.length_cons] at hl
    rw [readTerms, if_neg (by omega), if_neg (by omega), h2]
    dsimp only
    rw [if_neg (by omega), h3]
    dsimp only
    rw [if_neg (by omega), h4]
    dsimp only
    rw [ih _ (by simp; omega)]
    simp

theorem readTerms_ne_diverge (lib : Lib F) (ls : List Line) : ∀ acc, readTerms lib ls acc ≠ .diverge := by
  induction ls with
  | nil => intro acc; simp [readTerms]
  | cons l ls ih =>
    intro acc
    rw [readTerms]
    split_ifs
    · simp
    · simp
    all_goals
      cases lib.parseFloat (lib.trim (slice l 79 97)) with
      | none => simp
      | some a =>
        cases lib.parseFloat (slice l 98 111) with
        | none => simp
        | some b =>
          cases lib.parseFloat (lib.trim (slice l 111 131)) with
          | none => simp
          | some c => first | exact ih _ | simp

theorem readTerms_ne_panic (lib : Lib F) (ls : List Line) (h : ∀ l ∈ ls, 131 ≤ l.length) :
    ∀ acc, acc.length + ls.length ≤ 2047 → readTerms lib ls acc ≠ .panic := by
  induction ls with
  | nil => intro acc _; simp [readTerms]
  | cons l ls ih =>
    intro acc ha
    simp only [List.length_cons] at ha
    have hl := h l (by simp)
    rw [readTerms, if_neg (by omega), if_neg (by omega)]
    cases lib.parseFloat (lib.trim (slice l 79 97)) with
    | none => simp
    | some a =>
      dsimp only
      rw [if_neg (by omega)]
      cases lib.parseFloat (slice l 98 111) with
      | none => simp
      | some b =>
        dsimp only
        rw [if_neg (by omega)]
        cases lib.parseFloat (lib.trim (slice l 111 131)) with
        | none => simp
        | some c => exact ih (fun x hx => h x (by simp [hx])) _ (by simp; omega)

/-- One coordinate is read. -/
theorem parse_section (lib : Lib F) (ic : UInt8) (ibody : ℕ) {bs : List (Block F)} {ls : List Line} (h : IsSection lib ic ibody bs ls) :
    ∀ (pre tail : List Line), (∀ l, tail.head? = some l → l.length < 132 ∨ byteAt l 41 ≠ ic) →
    ∀ fuel, bs.length < fuel → ∀ c : Coeff F,
      parse lib ic ibody (pre ++ (ls ++ tail)) fuel pre.length c =
        .ok (pre.length + ls.length, bs.foldl (fun c b => Function.update c b.power b.terms) c) := by
  induction h with
  | nil =>
    intro pre tail ht fuel hf c
    obtain ⟨f, rfl⟩ : ∃ f, fuel = f + 1 := ⟨fuel - 1, by simp at hf; omega⟩
    rw [parse]
    cases tail with
    | nil => simp
    | cons l tl =>
      have h1 := ht l rfl
      rw [if_pos (by simp)]
      have : (pre ++ ([] ++ l :: tl)).getD pre.length [] = l := by simp
      rw [this]
      dsimp only
      by_cases hl : l.length < 132
      · rw [if_pos hl]; simp
      · rw [if_neg hl, if_pos (h1.resolve_left hl)]; simp
  | @cons b header termLines bs rest hh hp h1 h2 ht hs ih =>
    intro pre tail htl fuel hf c
    obtain ⟨f, rfl⟩ : ∃ f, fuel = f + 1 := ⟨fuel - 1, by simp at hf; omega⟩
    obtain ⟨a1, a2, a3, a4, a5, a6⟩ := hh
    have hlen : b.terms.length = termLines.length := ht.length_eq
    set lines := pre ++ (header :: (termLines ++ rest) ++ tail) with hlines
    have hL : lines.length = pre.length + 1 + termLines.length + rest.length + tail.length := by
      rw [hlines]; simp; omega
    rw [parse, if_pos (by omega)]
    have hg : lines.getD pre.length [] = header := by rw [hlines]; simp
    rw [hg]
    dsimp only
    rw [if_neg (by omega), if_neg (by simpa using a2), if_neg (by simpa using a3), if_neg (by simpa using a4), a6]
    dsimp only
    rw [if_neg (by omega), if_neg (by omega), if_neg (by omega)]
    have hsl : slice lines (pre.length + 1) (pre.length + 1 + (b.terms.length : ℤ).toNat) = termLines := by
      unfold slice
      rw [hlines, Int.toNat_natCast, hlen]
      have : pre ++ (header :: (termLines ++ rest) ++ tail) = (pre ++ [header]) ++ (termLines ++ (rest ++ tail)) := by simp
      rw [this, List.drop_left' (by simp)]
      rw [Nat.add_sub_cancel_left, List.take_left' rfl]
    have hit : (byteAt header 59 - 48).toNat = b.power := by
      rw [UInt8.toNat_sub_of_le]
      · rw [a5]; simp
      · rw [UInt8.le_iff_toNat_le, a5]; simp
    rw [hsl, readTerms_ok lib ht [] (by simpa using h2)]
    dsimp only
    rw [hit, if_neg (by omega)]
    have := ih (pre ++ header :: termLines) tail htl f (by simp at hf; omega) (Function.update c b.power b.terms)
    have e1 : (pre ++ header :: termLines) ++ (rest ++ tail) = lines := by rw [hlines]; simp
    have e2 : (pre ++ header :: termLines).length = pre.length + 1 + (b.terms.length : ℤ).toNat := by
      simp [hlen]; omega
    rw [e1, e2] at this
    rw [List.nil_append, this]
    simp [hlen]; omega

theorem foldl_holds : ∀ (bs : List (Block F)), (bs.map Block.power).Nodup → ∀ c : Coeff F,
    (∀ b ∈ bs, bs.foldl (fun c b => Function.update c b.power b.terms) c b.power = b.terms) ∧
    ∀ p, (∀ b ∈ bs, b.power ≠ p) → bs.foldl (fun c b => Function.update c b.power b.terms) c p = c p
  | [], _, c => ⟨by simp, fun p _ => rfl⟩
  | b :: bs, hn, c => by
    simp only [List.map_cons, List.nodup_cons, List.mem_map, not_exists, not_and] at hn
    obtain ⟨i1, i2⟩ := foldl_holds bs hn.2 (Function.update c b.power b.terms)
    refine ⟨fun x hx => ?_, fun p hp => ?_⟩
    · rcases List.mem_cons.1 hx with rfl | hx
      · rw [List.foldl_cons, i2 _ (fun y hy => hn.1 y hy)]; simp
      · rw [List.foldl_cons, i1 x hx]
    · rw [List.foldl_cons, i2 p (fun y hy => hp y (by simp [hy])), Function.update_of_ne]
      exact (hp b (by simp)).symm

/-- The rounds of parse, case by case: after checking the header there is an error, a panic with its reason, or the next round. -/
theorem parse_succ (lib : Lib F) (ic : UInt8) (ibody : ℕ) (lines : List Line) (f n : ℕ) (c : Coeff F) :
    (∃ r, parse lib ic ibody lines (f + 1) n c = .ok r) ∨ parse lib ic ibody lines (f + 1) n c = .error ∨
    ∃ line, n < lines.length ∧ lines.getD n [] = line ∧ line ∈ lines ∧ 132 ≤ line.length ∧
      ∃ cnt : ℤ, atoi (lib.trim (slice line 60 67)) = some cnt ∧
      ((cnt = 0 ∧ parse lib ic ibody lines (f + 1) n c = parse lib ic ibody lines f n c) ∨
       (cnt ≠ 0 ∧ cnt ≤ lines.length - n ∧
         (((cnt < 0 ∨ (n : ℤ) + 1 + cnt > lines.length ∨ readTerms lib (slice lines (n + 1) (n + 1 + cnt.toNat)) [] = .panic ∨
            6 ≤ (byteAt line 59 - 48).toNat) ∧ parse lib ic ibody lines (f + 1) n c = .panic) ∨
          (0 < cnt ∧ n + 1 + cnt.toNat ≤ lines.length ∧ ∃ c', parse lib ic ibody lines (f + 1) n c =
            parse lib ic ibody lines f (n + 1 + cnt.toNat) c')))) := by
  rw [parse]
  by_cases hn : n < lines.length
  · rw [if_pos hn]
    have hm : lines.getD n [] ∈ lines := by
      rw [List.getD_eq_getElem _ _ hn]; exact List.getElem_mem hn
    obtain ⟨line, hline⟩ : ∃ line, lines.getD n [] = line := ⟨_, rfl⟩
    rw [hline] at hm ⊢
    dsimp only
    by_cases c1 : line.length < 132
    · rw [if_pos c1]; exact Or.inl ⟨_, rfl⟩
    rw [if_neg c1]
    by_cases c2 : byteAt line 41 ≠ ic
    · rw [if_pos c2]; exact Or.inl ⟨_, rfl⟩
    rw [if_neg c2]
    by_cases c3 : byteAt line 17 ≠ 50
    · rw [if_pos c3]; exact Or.inr (Or.inl rfl)
    rw [if_neg c3]
    by_cases c4 : slice line 22 29 ≠ bodyName ibody
    · rw [if_pos c4]; exact Or.inr (Or.inl rfl)
    rw [if_neg c4]
    cases hat : atoi (lib.trim (slice line 60 67)) with
    | none => exact Or.inr (Or.inl rfl)
    | some cnt =>
      dsimp only
      by_cases d0 : cnt = 0
      · rw [if_pos d0]
        exact Or.inr (Or.inr ⟨line, hn, rfl, hm, by omega, cnt, hat, Or.inl ⟨d0, rfl⟩⟩)
      rw [if_neg d0]
      by_cases d1 : cnt > (lines.length : ℤ) - n
      · rw [if_pos d1]; exact Or.inr (Or.inl rfl)
      rw [if_neg d1]
      by_cases d2 : cnt < 0 ∨ (n : ℤ) + 1 + cnt > lines.length
      · rw [if_pos d2]
        exact Or.inr (Or.inr ⟨line, hn, rfl, hm, by omega, cnt, hat, Or.inr ⟨d0, by omega, Or.inl ⟨by tauto, rfl⟩⟩⟩)
      rw [if_neg d2]
      push Not at d2
      have hr := readTerms_ne_diverge lib (slice lines (n + 1) (n + 1 + cnt.toNat)) []
      cases hrd : readTerms lib (slice lines (n + 1) (n + 1 + cnt.toNat)) [] with
      | error => exact Or.inr (Or.inl rfl)
      | panic =>
        exact Or.inr (Or.inr ⟨line, hn, rfl, hm, by omega, cnt, hat, Or.inr ⟨d0, by omega, Or.inl ⟨by tauto, rfl⟩⟩⟩)
      | diverge => exact absurd hrd hr
      | ok ts =>
        dsimp only
        by_cases d3 : 6 ≤ (byteAt line 59 - 48).toNat
        · rw [if_pos d3]
          exact Or.inr (Or.inr ⟨line, hn, rfl, hm, by omega, cnt, hat, Or.inr ⟨d0, by omega, Or.inl ⟨by tauto, rfl⟩⟩⟩)
        · rw [if_neg d3]
          exact Or.inr (Or.inr ⟨line, hn, rfl, hm, by omega, cnt, hat, Or.inr ⟨d0, by omega, Or.inr ⟨by omega, by omega, _, rfl⟩⟩⟩)
  · rw [if_neg hn]; exact Or.inl ⟨_, rfl⟩

/-- No header announces zero terms: the loop ends. -/
theorem parse_ne_diverge (lib : Lib F) (ic : UInt8) (ibody : ℕ) (lines : List Line)
    (h : ∀ l ∈ lines, 132 ≤ l.length → atoi (lib.trim (slice l 60 67)) ≠ some 0) :
    ∀ fuel n (c : Coeff F), 1 ≤ fuel → lines.length < n + fuel → parse lib ic ibody lines fuel n c ≠ .diverge := by
  intro fuel
  induction fuel with
  | zero => intro n c h1 _; omega
  | succ f ih =>
    intro n c _ hf
    rcases parse_succ lib ic ibody lines f n c with ⟨r, hr⟩ | hr | ⟨line, hn, -, hm, hl, cnt, hat, hcase⟩
    · rw [hr]; simp
    · rw [hr]; simp
    · have h0 := h line hm hl
      rcases hcase with ⟨h00, -⟩ | ⟨hne, hle, ⟨-, hp⟩ | ⟨hpos, hb, c', hc'⟩⟩
      · rw [hat, h00] at h0; exact absurd rfl h0
      · rw [hp]; simp
      · rw [hc']
        exact ih _ _ (by omega) (by omega)

/-- What keeps the loader from panicking: every header announces between 0 and 2047 terms, a power 0 to 5, is not followed by exactly one
line too few, and the lines of its terms are long enough. -/
def Safe (lib : Lib F) (lines : List Line) : Prop :=
  ∀ n, n < lines.length → ∀ cnt : ℤ, 132 ≤ (lines.getD n []).length → atoi (lib.trim (slice (lines.getD n []) 60 67)) = some cnt →
    0 ≤ cnt ∧ cnt ≤ 2047 ∧ cnt ≠ (lines.length : ℤ) - n ∧ (byteAt (lines.getD n []) 59 - 48).toNat ≤ 5 ∧
    ∀ l ∈ slice lines (n + 1) (n + 1 + cnt.toNat), 131 ≤ l.length

theorem parse_ne_panic (lib : Lib F) (ic : UInt8) (ibody : ℕ) (lines : List Line) (h : Safe lib lines) :
    ∀ fuel n (c : Coeff F), parse lib ic ibody lines fuel n c ≠ .panic := by
  intro fuel
  induction fuel with
  | zero => intro n c; simp [parse]
  | succ f ih =>
    intro n c
    rcases parse_succ lib ic ibody lines f n c with ⟨r, hr⟩ | hr | ⟨line, hn, hl, hm, hl132, cnt, hat, hcase⟩
    · rw [hr]; simp
    · rw [hr]; simp
    · obtain ⟨s1, s2, s3, s4, s5⟩ := h n hn cnt (by rw [hl]; exact hl132) (by rw [hl]; exact hat)
      rw [hl] at s4
      rcases hcase with ⟨h00, hp⟩ | ⟨hne, hle, ⟨hwhy, hp⟩ | ⟨hpos, hb, c', hc'⟩⟩
      · rw [hp]; exact ih _ _
      · exfalso
        rcases hwhy with w | w | w | w
        · omega
        · omega
        · refine readTerms_ne_panic lib _ s5 [] ?_ w
          simp [slice]; omega
        · omega
      · rw [hc']; exact ih _ _

end Verif.Lemmas
