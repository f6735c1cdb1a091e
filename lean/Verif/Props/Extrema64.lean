import Verif.Model.Extrema64
import Verif.Props.Planetary64
/-
C189: perihelion and aphelion of the planets and extreme declinations of the Moon in double precision.
-/
namespace Verif.Props

open Real Verif.Model Verif.Go Verif.Go.F64 Verif.Go.F64.Ex

namespace Extrema64v

open Planetary64v

/-! The Moon. -/

section Moon

open Moonmaxdec64

theorem arg_v (y : ℝ) : Moonmaxdec64.arg.val (fun _ => y) = (y - 2000.03) * 13.3686 + 1 / 2 := by
  simp only [Moonmaxdec64.arg, val_add, val_sub, val_mul, val_q, val_v]; norm_num

/-- The records agree. -/
def Same (k : ℝ) (c : Mc) (m : Moonmaxdec.Mc) : Prop :=
  let T := k * Moonmaxdec.ck
  c.D.val (fun _ => k) = hornerR T [m.D, 333.0705546 * deg / Moonmaxdec.ck, -0.0004214 * deg, 0.00000011 * deg] ∧
  c.M.val (fun _ => k) = hornerR T [m.M, 26.9281592 * deg / Moonmaxdec.ck, -0.0000355 * deg, -0.0000001 * deg] ∧
  c.M'.val (fun _ => k) = hornerR T [m.M', 356.9562794 * deg / Moonmaxdec.ck, 0.0103066 * deg, 0.00001251 * deg] ∧
  c.F.val (fun _ => k) = hornerR T [m.F, 1.4467807 * deg / Moonmaxdec.ck, -0.002069 * deg, -0.00000215 * deg] ∧
  c.jde.val (fun _ => k) = hornerR T [m.JDE, 27.321582247 / Moonmaxdec.ck, 0.000119804, -0.000000141] ∧
  (∀ i, (co c.tc i).val (fun _ => k) = m.tc.getD i 0) ∧ ∀ i, (co c.dc i).val (fun _ => k) = m.dc.getD i 0

theorem getD_v (ρ : ℕ → ℝ) (l : List Ex) (i : ℕ) : (co l i).val ρ = (l.map (val ρ)).getD i 0 := by
  unfold co
  have : (0 : ℝ) = (q 0 1).val ρ := by simp [val_q]
  rw [this, List.getD_eq_getElem?_getD, List.getD_eq_getElem?_getD, List.getElem?_map]
  cases l[i]? <;> rfl

theorem sumFrom_rep {l : Trig} {ρ : ℕ → ℝ} : ∀ (ts : List Ex) (a : Ex), (∀ x, Run l ρ a x → Rep x) → ∀ x, Run l ρ (sumFrom a ts) x → Rep x
  | [], _, h, x, hx => h x hx
  | t :: ts, a, _, x, hx => sumFrom_rep ts (a + t) (fun x hx => by
      change Run l ρ (.add a t) x at hx
      cases hx <;> exact rep_fl _) x hx

theorem rep_minus {x : ℝ} (h : Rep x) : Rep (-x) := by
  obtain ⟨m, k, rfl, hm, hk⟩ := h
  exact ⟨-m, k, by push_cast; ring, by rwa [abs_neg], hk⟩

theorem nc_same (k : ℝ) : Same k nc Moonmaxdec.nc := by
  refine ⟨?_, ?_, ?_, ?_, ?_, fun i => ?_, fun i => ?_⟩
  · simp only [nc, T, horner, val_add, val_mul, val_p, val_q, val_v, hornerR, List.foldr, Moonmaxdec.ck, Moonmaxdec.nc, deg]; norm_num; ring
  · simp only [nc, T, horner, val_add, val_mul, val_p, val_q, val_v, hornerR, List.foldr, Moonmaxdec.ck, Moonmaxdec.nc, deg]; norm_num; ring
  · simp only [nc, T, horner, val_add, val_mul, val_p, val_q, val_v, hornerR, List.foldr, Moonmaxdec.ck, Moonmaxdec.nc, deg]; norm_num; ring
  · simp only [nc, T, horner, val_add, val_mul, val_p, val_q, val_v, hornerR, List.foldr, Moonmaxdec.ck, Moonmaxdec.nc, deg]; norm_num; ring
  · simp only [nc, T, horner, val_add, val_mul, val_p, val_q, val_v, hornerR, List.foldr, Moonmaxdec.ck, Moonmaxdec.nc, deg]; norm_num
  · rw [getD_v]
    congr 1
    simp only [nc, Moonmaxdec.nc, List.map, val_q]; norm_num
  · rw [getD_v]
    congr 1
    simp only [nc, Moonmaxdec.nc, List.map, val_p, deg, List.cons.injEq, and_true]
    norm_num
    repeat' constructor
    all_goals ring

theorem sc_same (k : ℝ) : Same k sc Moonmaxdec.sc := by
  refine ⟨?_, ?_, ?_, ?_, ?_, fun i => ?_, fun i => ?_⟩
  · simp only [sc, T, horner, val_add, val_mul, val_p, val_q, val_v, hornerR, List.foldr, Moonmaxdec.ck, Moonmaxdec.sc, deg]; norm_num; ring
  · simp only [sc, T, horner, val_add, val_mul, val_p, val_q, val_v, hornerR, List.foldr, Moonmaxdec.ck, Moonmaxdec.sc, deg]; norm_num; ring
  · simp only [sc, T, horner, val_add, val_mul, val_p, val_q, val_v, hornerR, List.foldr, Moonmaxdec.ck, Moonmaxdec.sc, deg]; norm_num; ring
  · simp only [sc, T, horner, val_add, val_mul, val_p, val_q, val_v, hornerR, List.foldr, Moonmaxdec.ck, Moonmaxdec.sc, deg]; norm_num; ring
  · simp only [sc, T, horner, val_add, val_mul, val_p, val_q, val_v, hornerR, List.foldr, Moonmaxdec.ck, Moonmaxdec.sc, deg]; norm_num
  · rw [getD_v]
    congr 1
    simp only [sc, Moonmaxdec.sc, List.map, val_q]; norm_num
  · rw [getD_v]
    congr 1
    simp only [sc, Moonmaxdec.sc, List.map, val_p, deg, List.cons.injEq, and_true]
    norm_num
    repeat' constructor
    all_goals ring



theorem jde_v (k : ℤ) (c : Mc) (m : Moonmaxdec.Mc) (h : Same k c m) : (jde c).val (fun _ => (k : ℝ)) = (Moonmaxdec.maxAt k m).1 := by
  obtain ⟨hD, hM, hM', hF, hj, ht, hd⟩ := h
  have hE : E.val (fun _ => (k : ℝ)) = hornerR (k * Moonmaxdec.ck) [1, -0.002516, -0.0000074] := by
    simp only [E, T, horner, val_add, val_mul, val_q, val_v, hornerR, List.foldr, Moonmaxdec.ck]; norm_num
  simp only [jde, val_sumFrom, List.map, val_mul, val_sin, val_cos, val_add, val_sub, hD, hM, hM', hF, hj, ht, hE, val_q,
    Moonmaxdec.maxAt, Moonmaxdec.timeTerms]
  norm_num

theorem dec_v (k : ℤ) (c : Mc) (m : Moonmaxdec.Mc) (h : Same k c m) : (dec c).val (fun _ => (k : ℝ)) * m.s = (Moonmaxdec.maxAt k m).2 := by
  obtain ⟨hD, hM, hM', hF, hj, ht, hd⟩ := h
  have hE : E.val (fun _ => (k : ℝ)) = hornerR (k * Moonmaxdec.ck) [1, -0.002516, -0.0000074] := by
    simp only [E, T, horner, val_add, val_mul, val_q, val_v, hornerR, List.foldr, Moonmaxdec.ck]; norm_num
  have h0 : (p 236961 1800000 - p 13004 180000000 * T).val (fun _ => (k : ℝ)) = 23.6961 * deg - 0.013004 * deg * (k * Moonmaxdec.ck) := by
    simp only [T, val_sub, val_mul, val_p, val_q, val_v, Moonmaxdec.ck, deg]; norm_num; ring
  simp only [dec, val_sumFrom, h0, List.map, val_mul, val_sin, val_cos, val_add, val_sub, hD, hM, hM', hF, hd, hE, val_q,
    Moonmaxdec.maxAt, Moonmaxdec.decTerms]
  norm_num

/-- The analyser's findings. -/
def decl (c : Mc) : Bool := within [(54000 * 2 ^ 64, 0)] (jde c) (2 ^ 100) 7486212072260646196194241363498 && within [(54000 * 2 ^ 64, 0)] (dec c) (2 ^ 100) 1020847100762815390390123822

end Moon

end Extrema64v

open Extrema64v Planetary64v

/-- `t`, `δ` are within 2.2·10⁻⁸ day and 3·10⁻¹² radian of an event of moonmaxdec near year y, the one which `max` gives
unless y is within 10⁻¹⁰ month of the middle between two. -/
def DecOk (m : Moonmaxdec.Mc) (y t δ : ℝ) : Prop :=
  ∃ n : ℤ, |(y - 2000.03) * 13.3686 - n| ≤ 1 / 2 + 1e-10 ∧ |t - (Moonmaxdec.maxAt n m).1| ≤ 2.2e-8 ∧ |δ - (Moonmaxdec.maxAt n m).2| ≤ 3e-12 ∧
    (1e-10 < |Int.fract ((y - 2000.03) * 13.3686) - 1 / 2| → |t - (Moonmaxdec.max y m).1| ≤ 2.2e-8 ∧ |δ - (Moonmaxdec.max y m).2| ≤ 3e-12)

set_option maxRecDepth 100000 in
theorem max_close {l : Trig} (hl : l.Ok) {y : ℝ} (hy : |y - 2000| ≤ 4000) {c : Moonmaxdec64.Mc} {m : Moonmaxdec.Mc} (hs : ∀ k : ℝ, Same k c m) (h1 : |m.s| = 1)
    (hw : decl c = true) {t δ : ℝ} (h : Moonmaxdec64.max l c m.s y t δ) : DecOk m y t δ := by
  unfold decl at hw
  rw [Bool.and_eq_true] at hw
  obtain ⟨w1, w2⟩ := hw
  obtain ⟨x, d, hx, ht, hd, hδ⟩ := h
  have hy6 : |y| ≤ (6000 : ℕ) := by
    push_cast
    rw [abs_le] at hy ⊢
    constructor <;> linarith [hy.1, hy.2]
  have e := (within_bound hl (env_one hy6) hx (m := 2 ^ 100) (ε := 34028236692093846346337460743) (by decide +kernel)).2
  rw [arg_v] at e
  have e' := e.trans (show _ ≤ (1e-10 : ℝ) by norm_num)
  obtain ⟨s1, s2⟩ := snap_floor (by norm_num) (by norm_num) e'
  have hk : |((⌊x⌋ : ℤ) : ℝ)| ≤ (54000 : ℕ) := by
    have s1' := s1.trans (show _ ≤ (1 : ℝ) by norm_num)
    push_cast
    rw [abs_le] at hy s1' ⊢
    constructor <;> linarith [hy.1, hy.2, s1'.1, s1'.2]
  have t1 := (within_bound hl (env_one hk) ht w1).2
  rw [jde_v _ _ _ (hs _)] at t1
  have t1' := t1.trans (show _ ≤ (2.2e-8 : ℝ) by norm_num)
  have d1 := (within_bound hl (env_one hk) hd w2).2
  have d1' := d1.trans (show _ ≤ (3e-12 : ℝ) by norm_num)
  have hfl : fl d = d := by
    refine fl_rep (sumFrom_rep _ _ (fun x hx => ?_) d hd)
    change Run l _ (.sub _ (.mul _ _)) x at hx
    cases hx <;> exact rep_fl _
  have hδ' : δ = d * m.s := by
    rcases (abs_eq (by norm_num)).mp h1 with h | h
    · rw [hδ, h, mul_one, hfl]
    · rw [hδ, h, mul_neg, mul_one, fl_rep (rep_minus (hfl ▸ rep_fl d))]
  have d2 : |δ - (Moonmaxdec.maxAt ⌊x⌋ m).2| ≤ 3e-12 := by
    rw [← dec_v _ _ _ (hs _), hδ', ← sub_mul, abs_mul, h1, mul_one]
    exact d1'
  refine ⟨⌊x⌋, s1, t1', d2, fun hf => ?_⟩
  have : Moonmaxdec.maxK y = ⌊x⌋ := by
    rw [s2 hf, Moonmaxdec.maxK, show (0.5 : ℝ) = 1 / 2 by norm_num]
  unfold Moonmaxdec.max
  rw [this]
  exact ⟨t1', d2⟩

set_option maxRecDepth 100000 in
/-- moonmaxdec.North in double precision, years −2000 to 6000. -/
theorem C189_north {l : Trig} (hl : l.Ok) {y : ℝ} (hy : |y - 2000| ≤ 4000) {t δ : ℝ} (h : Moonmaxdec64.max l Moonmaxdec64.nc 1 y t δ) : DecOk Moonmaxdec.nc y t δ :=
  max_close hl hy nc_same (by simp [Moonmaxdec.nc]) (by decide +kernel) h

set_option maxRecDepth 100000 in
/-- moonmaxdec.South in double precision, years −2000 to 6000. -/
theorem C189_south {l : Trig} (hl : l.Ok) {y : ℝ} (hy : |y - 2000| ≤ 4000) {t δ : ℝ} (h : Moonmaxdec64.max l Moonmaxdec64.sc (-1) y t δ) : DecOk Moonmaxdec.sc y t δ :=
  max_close hl hy sc_same (by simp [Moonmaxdec.sc]) (by decide +kernel) h

namespace Extrema64v

open Perihelion64

theorem parg_v {n : ℕ} (hn : n < 9) (y : ℝ) : ∃ ab, Model.Perihelion.ka[ix n]? = some ab ∧ (arg n).val (fun _ => y) = ab.1 * (y - ab.2) := by
  interval_cases n <;> refine ⟨_, rfl, ?_⟩ <;> simp [arg, ix, ka, val_mul, val_sub, val_q, val_v] <;> norm_num

theorem horner_k (k : ℝ) (m : ℕ) (hm : m < 8) : ∃ c, Model.Perihelion.coef[m]? = some c ∧
    Horner k c = some ((horner (v 0) ((coef.getD m []).map fun n => q n 10000000000)).val fun _ => k) := by
  interval_cases m <;> refine ⟨_, rfl, ?_⟩ <;> simp [Horner, coef, horner, val_add, val_mul, val_q, val_v] <;> norm_num

theorem j_v {n : ℕ} (hn : n < 9) (a : Bool) (k : ℝ) : Model.Perihelion.apK n k a = some ((j n a).val fun _ => k) := by
  obtain ⟨c, h1, h2⟩ := horner_k k (if n = 8 then 2 else n) (by split <;> omega)
  unfold Model.Perihelion.apK
  simp only [h1, h2]
  unfold j ix
  by_cases hn2 : n = 2
  · rw [if_pos hn2, if_pos hn2]
    congr 1
    cases a
    · simp [Model.Perihelion.ep, Model.Perihelion.ec, ep, ec, List.zip, List.foldl, val_add, val_mul, val_div, val_sin, val_q, val_p, val_v]
      norm_num
    · simp [Model.Perihelion.ea, Model.Perihelion.ec, ea, ec, List.zip, List.foldl, val_add, val_mul, val_div, val_sin, val_q, val_p, val_v]
      norm_num
  · rw [if_neg hn2, if_neg hn2]

/-- A bound on k. -/
def kMax (n : ℕ) : ℕ := [33300, 13100, 8100, 4300, 700, 300, 100, 60, 8100].getD n 0

/-- What the analyser finds. -/
def perOk (n : ℕ) : Bool :=
  within [(6000 * 2 ^ 64, 0)] (arg n + q 5 10) ((kMax n - 2) * 2 ^ 64) 34028236692093846346337460743 &&
  within [(6000 * 2 ^ 64, 0)] (arg n) ((kMax n - 2) * 2 ^ 64) 34028236692093846346337460743 &&
  within [(kMax n * 2 ^ 64, 0)] (j n false) (2 ^ 100) 1701411834604692317316873037158 &&
  within [(kMax n * 2 ^ 64, 0)] (j n true) (2 ^ 100) 1701411834604692317316873037158

set_option maxRecDepth 100000 in
theorem per_ok {n : ℕ} (hn : n < 9) : perOk n = true := by
  have : ∀ n : Fin 9, perOk n = true := by decide +kernel
  exact this ⟨n, hn⟩

theorem kMax_pos {n : ℕ} (hn : n < 9) : 2 ≤ kMax n := by
  interval_cases n <;> decide

end Extrema64v

/-- `out` is within 5·10⁻⁹ day of event number n + h of the planet, which is the nearest to y but for 10⁻¹⁰ period,
and the one which `f` gives unless y is within 10⁻¹⁰ period of the middle between two. -/
def ApsisOk (n : ℕ) (a : Bool) (h : ℝ) (f : ℕ → ℝ → Option ℝ) (y out : ℝ) : Prop :=
  ∃ ab, Model.Perihelion.ka[if n = 8 then 2 else n]? = some ab ∧
  ∃ k : ℤ, |ab.1 * (y - ab.2) - (k + h)| ≤ 1 / 2 + 1e-10 ∧ ∃ e, Model.Perihelion.apK n (k + h) a = some e ∧ |out - e| ≤ 5e-9 ∧
    (1e-10 < |Int.fract (ab.1 * (y - ab.2) - h) - 1 / 2| → f n y = some e)

/-- perihelion.Perihelion in double precision: all planets, years −2000 to 6000. -/
theorem C189_perihelion {l : Trig} (hl : l.Ok) {n : ℕ} (hn : n < 9) {y : ℝ} (hy : |y - 2000| ≤ 4000) {out : ℝ} (h : Perihelion64.Perihelion l n y out) :
    ApsisOk n false 0 Model.Perihelion.Perihelion y out := by
  have ho := per_ok hn
  unfold perOk at ho
  simp only [Bool.and_eq_true] at ho
  obtain ⟨⟨⟨w1, w2⟩, w3⟩, w4⟩ := ho
  obtain ⟨x, hx, hj⟩ := h
  obtain ⟨ab, ha, hv⟩ := parg_v hn y
  have hy6 : |y| ≤ (6000 : ℕ) := by
    push_cast
    rw [abs_le] at hy ⊢
    constructor <;> linarith [hy.1, hy.2]
  obtain ⟨b1, b2⟩ := within_bound hl (env_one hy6) hx w1
  have h5 : (q 5 10).val (fun _ => y) = 1 / 2 := by rw [val_q]; norm_num
  rw [val_add, hv, h5] at b1 b2
  have b2' := b2.trans (show _ ≤ (1e-10 : ℝ) by norm_num)
  obtain ⟨s1, s2⟩ := snap_floor (by norm_num) (by norm_num) b2'
  have hm := kMax_pos hn
  have hk : |((⌊x⌋ : ℤ) : ℝ)| ≤ (kMax n : ℕ) := by
    have c1 : (((kMax n - 2) * 2 ^ 64 : ℕ) : ℝ) / 2 ^ 64 = (kMax n : ℝ) - 2 := by
      rw [Nat.cast_mul, Nat.cast_sub hm, Nat.cast_pow, Nat.cast_ofNat, mul_div_cancel_right₀ _ (by positivity)]
    rw [c1] at b1
    have s1' := s1.trans (show _ ≤ (1 : ℝ) by norm_num)
    rw [abs_le] at b1 s1' ⊢
    constructor <;> linarith [b1.1, b1.2, s1'.1, s1'.2]
  have e := (within_bound hl (env_one hk) hj w3).2.trans (show _ ≤ (5e-9 : ℝ) by norm_num)
  refine ⟨ab, ha, ⌊x⌋, by rw [add_zero]; exact s1, _, j_v hn false _, by rw [add_zero]; exact e, fun hf => ?_⟩
  rw [sub_zero] at hf
  unfold Model.Perihelion.Perihelion Model.Perihelion.ap
  have ha' : Model.Perihelion.ka[if n = 8 then 2 else n]? = some ab := ha
  simp only [ha']
  rw [Model.Perihelion.pf, show (0.5 : ℝ) = 1 / 2 by norm_num, ← s2 hf, add_zero, j_v hn]

/-- perihelion.Aphelion in double precision: all planets, years −2000 to 6000. -/
theorem C189_aphelion {l : Trig} (hl : l.Ok) {n : ℕ} (hn : n < 9) {y : ℝ} (hy : |y - 2000| ≤ 4000) {out : ℝ} (h : Perihelion64.Aphelion l n y out) :
    ApsisOk n true (1 / 2) Model.Perihelion.Aphelion y out := by
  have ho := per_ok hn
  unfold perOk at ho
  simp only [Bool.and_eq_true] at ho
  obtain ⟨⟨⟨w1, w2⟩, w3⟩, w4⟩ := ho
  obtain ⟨x, hx, hj⟩ := h
  obtain ⟨ab, ha, hv⟩ := parg_v hn y
  have hy6 : |y| ≤ (6000 : ℕ) := by
    push_cast
    rw [abs_le] at hy ⊢
    constructor <;> linarith [hy.1, hy.2]
  obtain ⟨b1, b2⟩ := within_bound hl (env_one hy6) hx w2
  rw [hv] at b1 b2
  have b2' : |x - (ab.1 * (y - ab.2) - 1 / 2 + 1 / 2)| ≤ 1e-10 := by
    rw [sub_add_cancel]
    exact b2.trans (show _ ≤ (1e-10 : ℝ) by norm_num)
  obtain ⟨s1, s2⟩ := snap_floor (by norm_num) (by norm_num) b2'
  rw [sub_add_cancel] at s2
  have hm := kMax_pos hn
  have c1 : (((kMax n - 2) * 2 ^ 64 : ℕ) : ℝ) / 2 ^ 64 = (kMax n : ℝ) - 2 := by
    rw [Nat.cast_mul, Nat.cast_sub hm, Nat.cast_pow, Nat.cast_ofNat, mul_div_cancel_right₀ _ (by positivity)]
  rw [c1] at b1
  have s1' := s1.trans (show _ ≤ (1 : ℝ) by norm_num)
  have hkk : |((⌊x⌋ : ℤ) : ℝ) + 1 / 2| ≤ (kMax n : ℕ) := by
    rw [abs_le] at b1 s1' ⊢
    constructor <;> linarith [b1.1, b1.2, s1'.1, s1'.2]
  have hfl : fl (((⌊x⌋ : ℤ) : ℝ) + 0.5) = (⌊x⌋ : ℤ) + 1 / 2 := by
    rw [show (0.5 : ℝ) = 1 / 2 by norm_num]
    apply fl_rep
    refine ⟨2 * ⌊x⌋ + 1, -1, ?_, ?_, by norm_num⟩
    · rw [zpow_neg, zpow_one]; push_cast; ring
    · have hK : (kMax n : ℝ) ≤ 40000 := by
        have : ∀ n : Fin 9, kMax n ≤ 40000 := by decide
        exact_mod_cast this ⟨n, hn⟩
      have := hkk.trans hK
      rw [abs_le] at this
      have t1 : ((2 * ⌊x⌋ + 1 : ℤ) : ℝ) ≤ 80000 := by push_cast; linarith [this.2]
      have t2 : (-80000 : ℝ) ≤ ((2 * ⌊x⌋ + 1 : ℤ) : ℝ) := by push_cast; linarith [this.1]
      have t1' : 2 * ⌊x⌋ + 1 ≤ 80000 := by exact_mod_cast t1
      have t2' : -80000 ≤ 2 * ⌊x⌋ + 1 := by exact_mod_cast t2
      rw [abs_le]
      constructor <;> omega
  rw [hfl] at hj
  have e := (within_bound hl (env_one hkk) hj w4).2.trans (show _ ≤ (5e-9 : ℝ) by norm_num)
  refine ⟨ab, ha, ⌊x⌋, by rw [← sub_sub, sub_right_comm]; exact s1, _, j_v hn true _, e, fun hf => ?_⟩
  unfold Model.Perihelion.Aphelion Model.Perihelion.ap
  have ha' : Model.Perihelion.ka[if n = 8 then 2 else n]? = some ab := ha
  simp only [ha']
  rw [Model.Perihelion.af, show (0.5 : ℝ) = 1 / 2 by norm_num, ← s2 hf, j_v hn]

/-- The programs have results. -/
theorem C189_example : ∃ l : Trig, l.Ok ∧ (∀ y, ∃ t δ, Moonmaxdec64.max l Moonmaxdec64.nc 1 y t δ) ∧
    (∀ n y, ∃ out, Perihelion64.Perihelion l n y out) ∧ ∀ n y, ∃ out, Perihelion64.Aphelion l n y out := by
  refine ⟨_, trig_ok, fun y => ?_, fun n y => ?_, fun n y => ?_⟩
  · obtain ⟨x, hx⟩ := run_exists _ (fun _ => y) Moonmaxdec64.arg
    obtain ⟨t, ht⟩ := run_exists _ (fun _ => (⌊x⌋ : ℝ)) (Moonmaxdec64.jde Moonmaxdec64.nc)
    obtain ⟨d, hd⟩ := run_exists _ (fun _ => (⌊x⌋ : ℝ)) (Moonmaxdec64.dec Moonmaxdec64.nc)
    exact ⟨t, _, x, d, hx, ht, hd, rfl⟩
  · obtain ⟨x, hx⟩ := run_exists _ (fun _ => y) (Perihelion64.arg n + q 5 10)
    obtain ⟨t, ht⟩ := run_exists _ (fun _ => (⌊x⌋ : ℝ)) (Perihelion64.j n false)
    exact ⟨t, x, hx, ht⟩
  · obtain ⟨x, hx⟩ := run_exists _ (fun _ => y) (Perihelion64.arg n)
    obtain ⟨t, ht⟩ := run_exists _ (fun _ => fl (⌊x⌋ + 0.5)) (Perihelion64.j n true)
    exact ⟨t, x, hx, ht⟩

end Verif.Props
