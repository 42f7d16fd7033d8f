import Verif.Cavity.Fits
import Mathlib.Tactic.Ring
import Mathlib.Tactic.NormNum
import Mathlib.Tactic.GCongr
import Mathlib.Tactic.Linarith

/-!
# Bounds of the fitted transit time factors

The values of a polynomial on an interval lie between the least and the greatest of its Bernstein coefficients there.  The
polynomials are those of `poleFit` and `gapFit` (Verif/Cavity/Fits.lean); their coefficients are written as fractions here.
-/

namespace Flame.Cavity.FitBounds

open Flame.Cavity

theorem series_ten (x a0 a1 a2 a3 a4 a5 a6 a7 a8 a9 : ℝ) : pwrSeries x [a0, a1, a2, a3, a4, a5, a6, a7, a8, a9] =
    a0 + a1 * x + a2 * x ^ 2 + a3 * x ^ 3 + a4 * x ^ 4 + a5 * x ^ 5 + a6 * x ^ 6 + a7 * x ^ 7 + a8 * x ^ 8 + a9 * x ^ 9 := by
  simp [pwrSeries, List.range', List.foldl]

theorem between {lo hi x : ℝ} (h : lo < hi) (h0 : lo ≤ x) (h1 : x ≤ hi) : ∃ t, 0 ≤ t ∧ t ≤ 1 ∧ x = lo + (hi - lo) * t := by
  have hd : 0 < hi - lo := by linarith
  refine ⟨(x - lo) / (hi - lo), div_nonneg (by linarith) hd.le, (div_le_one hd).mpr (by linarith), ?_⟩
  rw [mul_div_cancel₀ _ hd.ne']
  ring

/-- The polynomial of degree nine with the given Bernstein coefficients. -/
noncomputable def bern (b0 b1 b2 b3 b4 b5 b6 b7 b8 b9 t : ℝ) : ℝ :=
  b0 * (1 - t) ^ 9 + 9 * b1 * t * (1 - t) ^ 8 + 36 * b2 * t ^ 2 * (1 - t) ^ 7 + 84 * b3 * t ^ 3 * (1 - t) ^ 6 +
  126 * b4 * t ^ 4 * (1 - t) ^ 5 + 126 * b5 * t ^ 5 * (1 - t) ^ 4 + 84 * b6 * t ^ 6 * (1 - t) ^ 3 +
  36 * b7 * t ^ 7 * (1 - t) ^ 2 + 9 * b8 * t ^ 8 * (1 - t) + b9 * t ^ 9

theorem bern_one (t m : ℝ) : bern m m m m m m m m m m t = m := by
  unfold bern
  ring

theorem bern_mono {a0 a1 a2 a3 a4 a5 a6 a7 a8 a9 b0 b1 b2 b3 b4 b5 b6 b7 b8 b9 t : ℝ} (h0 : 0 ≤ t) (h1 : t ≤ 1) (g0 : a0 ≤ b0)
    (g1 : a1 ≤ b1) (g2 : a2 ≤ b2) (g3 : a3 ≤ b3) (g4 : a4 ≤ b4) (g5 : a5 ≤ b5) (g6 : a6 ≤ b6) (g7 : a7 ≤ b7) (g8 : a8 ≤ b8)
    (g9 : a9 ≤ b9) : bern a0 a1 a2 a3 a4 a5 a6 a7 a8 a9 t ≤ bern b0 b1 b2 b3 b4 b5 b6 b7 b8 b9 t := by
  have : 0 ≤ 1 - t := by linarith
  unfold bern
  gcongr

theorem bern_ge {m b0 b1 b2 b3 b4 b5 b6 b7 b8 b9 t : ℝ} (h0 : 0 ≤ t) (h1 : t ≤ 1) (g0 : m ≤ b0) (g1 : m ≤ b1) (g2 : m ≤ b2)
    (g3 : m ≤ b3) (g4 : m ≤ b4) (g5 : m ≤ b5) (g6 : m ≤ b6) (g7 : m ≤ b7) (g8 : m ≤ b8) (g9 : m ≤ b9) :
    m ≤ bern b0 b1 b2 b3 b4 b5 b6 b7 b8 b9 t := by
  rw [← bern_one t m]
  exact bern_mono h0 h1 g0 g1 g2 g3 g4 g5 g6 g7 g8 g9

theorem bern_le {M b0 b1 b2 b3 b4 b5 b6 b7 b8 b9 t : ℝ} (h0 : 0 ≤ t) (h1 : t ≤ 1) (g0 : b0 ≤ M) (g1 : b1 ≤ M) (g2 : b2 ≤ M)
    (g3 : b3 ≤ M) (g4 : b4 ≤ M) (g5 : b5 ≤ M) (g6 : b6 ≤ M) (g7 : b7 ≤ M) (g8 : b8 ≤ M) (g9 : b9 ≤ M) :
    bern b0 b1 b2 b3 b4 b5 b6 b7 b8 b9 t ≤ M := by
  rw [← bern_one t M]
  exact bern_mono h0 h1 g0 g1 g2 g3 g4 g5 g6 g7 g8 g9

theorem eFocus1_1_T {x : ℝ} (h0 : (1/40) ≤ x) (h1 : x ≤ (11/200)) :
    (-1239/1250) ≤ pwrSeries x
      [(628193/5000), (-1554161/50), 3354464, (-208945200), 8280687000, (-216586700000), 3739846000000,
      (-41121540000000), 261346200000000, (-731697200000000)] ∧
    pwrSeries x
      [(628193/5000), (-1554161/50), 3354464, (-208945200), 8280687000, (-216586700000), 3739846000000,
      (-41121540000000), 261346200000000, (-731697200000000)] ≤ (-4589/5000) := by
  obtain ⟨t, t0, t1, rfl⟩ := between (by norm_num) h0 h1
  have e : pwrSeries ((1/40) + ((11/200) - (1/40)) * t)
      [(628193/5000), (-1554161/50), 3354464, (-208945200), 8280687000, (-216586700000), 3739846000000,
      (-41121540000000), 261346200000000, (-731697200000000)] = bern
      (-80473523/81920000) (-240181103/245760000) (-237201721/245760000) (-566763523/573440000) (-7935912811/8601600000)
      (-6089351959/6144000000) (-65788200561/71680000000) (-145817549759/153600000000) (-709687864109/768000000000)
      (-1175856740813/1280000000000) t := by
    rw [series_ten, bern]
    ring
  rw [e]
  constructor
  · apply bern_ge t0 t1 <;> norm_num
  · apply bern_le t0 t1 <;> norm_num

theorem eFocus1_1_S {x : ℝ} (h0 : (1/40) ≤ x) (h1 : x ≤ (11/200)) :
    (-37/1000) ≤ pwrSeries x
      [(1394183/10000), (-3299673/100), 3438044, (-207036900), 7942886000, (-201375000000), 3374738000000,
      (-36057800000000), 222944600000000, (-607917700000000)] ∧
    pwrSeries x
      [(1394183/10000), (-3299673/100), 3438044, (-207036900), 7942886000, (-201375000000), 3374738000000,
      (-36057800000000), 222944600000000, (-607917700000000)] ≤ (239/10000) := by
  obtain ⟨t, t0, t1, rfl⟩ := between (by norm_num) h0 h1
  have e : pwrSeries ((1/40) + ((11/200) - (1/40)) * t)
      [(1394183/10000), (-3299673/100), 3438044, (-207036900), 7942886000, (-201375000000), 3374738000000,
      (-36057800000000), 222944600000000, (-607917700000000)] = bern
      (-1959541/327680000) (-10572977/983040000) (6958913/983040000) (-16300377/458752000) (820635587/34406400000)
      (-6359811007/172032000000) (217553663/40960000000) (-10393258241/614400000000) (-32749669931/3072000000000)
      (-65453225107/5120000000000) t := by
    rw [series_ten, bern]
    ring
  rw [e]
  constructor
  · apply bern_ge t0 t1 <;> norm_num
  · apply bern_le t0 t1 <;> norm_num

theorem eFocus1_2_T {x : ℝ} (h0 : (3/500) ≤ x) (h1 : x ≤ (7/200)) :
    (-1999/2000) ≤ pwrSeries x
      [(-9450041/10000000), (-364139/10000), (4963093/500), (-1449193), 128175200, (-7150297000), 253416400000,
      (-5535252000000), 67947780000000, (-358619700000000)] ∧
    pwrSeries x
      [(-9450041/10000000), (-364139/10000), (4963093/500), (-1449193), 128175200, (-7150297000), 253416400000,
      (-5535252000000), 67947780000000, (-358619700000000)] ≤ (-4703/5000) := by
  obtain ⟨t, t0, t1, rfl⟩ := between (by norm_num) h0 h1
  have e : pwrSeries ((3/500) + ((7/200) - (3/500)) * t)
      [(-9450041/10000000), (-364139/10000), (4963093/500), (-1449193), 128175200, (-7150297000), 253416400000,
      (-5535252000000), 67947780000000, (-358619700000000)] = bern
      (-19497495134752651/19531250000000000) (-70018951330299611/70312500000000000) (-9271399469128673/9375000000000000)
      (-26236552728891419/26250000000000000) (-10164175293324851/10500000000000000)
      (-12469741216014937/12600000000000000) (-1617398765203091/1680000000000000) (-277173273028831/288000000000000)
      (-109581570228899/115200000000000) (-4816026689419/5120000000000) t := by
    rw [series_ten, bern]
    ring
  rw [e]
  constructor
  · apply bern_ge t0 t1 <;> norm_num
  · apply bern_le t0 t1 <;> norm_num

theorem eFocus1_2_S {x : ℝ} (h0 : (3/500) ≤ x) (h1 : x ≤ (7/200)) :
    (-77/5000) ≤ pwrSeries x
      [(1985611/20000000), (-5545119/100000), (320042/25), (-1636888), 127980100, (-6379800000), 203657500000,
      (-4029152000000), 44963230000000, (-216171200000000)] ∧
    pwrSeries x
      [(1985611/20000000), (-5545119/100000), (320042/25), (-1636888), 127980100, (-6379800000), 203657500000,
      (-4029152000000), 44963230000000, (-216171200000000)] ≤ (49/10000) := by
  obtain ⟨t, t0, t1, rfl⟩ := between (by norm_num) h0 h1
  have e : pwrSeries ((3/500) + ((7/200) - (3/500)) * t)
      [(1985611/20000000), (-5545119/100000), (320042/25), (-1636888), 127980100, (-6379800000), 203657500000,
      (-4029152000000), 44963230000000, (-216171200000000)] = bern
      (-14001475794823/9765625000000000) (-29128507797863/5859375000000000) (31951205825419/7031250000000000)
      (-33625576056327/2187500000000000) (10989531476633/2250000000000000) (-11667040256771/1050000000000000)
      (-181800181499/26250000000000) (-194520458273/24000000000000) (-212956520959/19200000000000)
      (-15682421781/1280000000000) t := by
    rw [series_ten, bern]
    ring
  rw [e]
  constructor
  · apply bern_ge t0 t1 <;> norm_num
  · apply bern_le t0 t1 <;> norm_num

theorem eFocus1_3_T {x : ℝ} (h0 : (337431/20000000) ≤ x) (h1 : x ≤ (112477/2500000)) :
    (-613/625) ≤ pwrSeries x
      [(-1), (2778823/10000000000000), (6820327/100000), (2117553/500000000), (-385387/200), (270879/25000),
      (2996807/100), (3054321/500), (-1932277/5), 609439] ∧
    pwrSeries x
      [(-1), (2778823/10000000000000), (6820327/100000), (2117553/500000000), (-385387/200), (270879/25000),
      (2996807/100), (3054321/500), (-1932277/5), 609439] ≤ (-1739/2000) := by
  obtain ⟨t, t0, t1, rfl⟩ := between (by norm_num) h0 h1
  have e : pwrSeries ((337431/20000000) + ((112477/2500000) - (337431/20000000)) * t)
      [(-1), (2778823/10000000000000), (6820327/100000), (2117553/500000000), (-385387/200), (270879/25000),
      (2996807/100), (3054321/500), (-1932277/5), 609439] = bern
      (-502139593269706970037830844296023131344053969787285154204807463031/512000000000000000000000000000000000000000000000000000000000000000)
      (-560831546401082094577157950390326251550618121672299928743124889093/576000000000000000000000000000000000000000000000000000000000000000)
      (-23163932130556399878900056766505877136978820505149477234022487677/24000000000000000000000000000000000000000000000000000000000000000)
      (-20060647402601426370647462361034626478765414134268356275021637913/21000000000000000000000000000000000000000000000000000000000000000)
      (-2478062248381533238824570547233993353836605271631356169733045971/2625000000000000000000000000000000000000000000000000000000000000)
      (-916924933738900006363539499127799274935076777838326471750545971/984375000000000000000000000000000000000000000000000000000000000)
      (-37639821540706307644410366863843725123570948339635240488116219/41015625000000000000000000000000000000000000000000000000000000)
      (-1983551072316664483839470458494381060611693193908186470802317/2197265625000000000000000000000000000000000000000000000000000)
      (-27059209604855570242531747047444181673715444148447808085271/30517578125000000000000000000000000000000000000000000000000)
      (-3317233400613565128409166845184095470373284994569191861757/3814697265625000000000000000000000000000000000000000000000)
      t := by
    rw [series_ten, bern]
    ring
  rw [e]
  constructor
  · apply bern_ge t0 t1 <;> norm_num
  · apply bern_le t0 t1 <;> norm_num

theorem eFocus1_3_S {x : ℝ} (h0 : (337431/20000000) ≤ x) (h1 : x ≤ (112477/2500000)) :
    (1/10000) ≤ pwrSeries x
      [(-4530303/10000000000000000), (1625011/10000000000000), (-322903/12500000000), (619671/25000),
      (-1431967/10000000), (-386353/250), (-78491/500), (3856713/100), (-789957/25), (-1350038/5)] ∧
    pwrSeries x
      [(-4530303/10000000000000000), (1625011/10000000000000), (-322903/12500000000), (619671/25000),
      (-1431967/10000000), (-386353/250), (-78491/500), (3856713/100), (-789957/25), (-1350038/5)] ≤ (1/500) := by
  obtain ⟨t, t0, t1, rfl⟩ := between (by norm_num) h0 h1
  have e : pwrSeries ((337431/20000000) + ((112477/2500000) - (337431/20000000)) * t)
      [(-4530303/10000000000000000), (1625011/10000000000000), (-322903/12500000000), (619671/25000),
      (-1431967/10000000), (-386353/250), (-78491/500), (3856713/100), (-789957/25), (-1350038/5)] = bern
      (149657609939179447530312884143031998662733052692014784575310851/1280000000000000000000000000000000000000000000000000000000000000000)
      (260784646300254535365079201563909189371361097852525128074682553/1440000000000000000000000000000000000000000000000000000000000000000)
      (5424391411169598955154363841461433685453474814680376305034539/20000000000000000000000000000000000000000000000000000000000000000)
      (20616507525102237072039651401044744698607423667908329683991773/52500000000000000000000000000000000000000000000000000000000000000)
      (10834543801758458854089687451472048810333616189812814295241773/19687500000000000000000000000000000000000000000000000000000000000)
      (613677900532859207854653228889244081288200238598037552110197/820312500000000000000000000000000000000000000000000000000000000)
      (101415798209182784942126739717185512517504904426783359453399/102539062500000000000000000000000000000000000000000000000000000)
      (2334735927842430469127683368639977876081748915593478843019/1831054687500000000000000000000000000000000000000000000000000)
      (122599719084901516477067126034337186004828909101243065891/76293945312500000000000000000000000000000000000000000000000)
      (18922399662522036153690552600023144814192087166753105297/9536743164062500000000000000000000000000000000000000000000)
      t := by
    rw [series_ten, bern]
    ring
  rw [e]
  constructor
  · apply bern_ge t0 t1 <;> norm_num
  · apply bern_le t0 t1 <;> norm_num

theorem eFocus1_4_T {x : ℝ} (h0 : (112477/10000000) ≤ x) (h1 : x ≤ (112477/5000000)) :
    (-9881/10000) ≤ pwrSeries x
      [(-1), (-2406447/10000000000000), (237001/2500), (-7659927/1000000000), (-1231749/250), (-3504383/100000), 171259,
      (-1964643/100), (-4142976), 6085390] ∧
    pwrSeries x
      [(-1), (-2406447/10000000000000), (237001/2500), (-7659927/1000000000), (-1231749/250), (-3504383/100000), 171259,
      (-1964643/100), (-4142976), 6085390] ≤ (-2383/2500) := by
  obtain ⟨t, t0, t1, rfl⟩ := between (by norm_num) h0 h1
  have e : pwrSeries ((112477/10000000) + ((112477/5000000) - (112477/10000000)) * t)
      [(-1), (-2406447/10000000000000), (237001/2500), (-7659927/1000000000), (-1231749/250), (-3504383/100000), 171259,
      (-1964643/100), (-4142976), 6085390] = bern
      (-98808526086406743846987318510752868573816338602126622945295057/100000000000000000000000000000000000000000000000000000000000000)
      (-443454711545104462092594663621888437872389649128276338379655513/450000000000000000000000000000000000000000000000000000000000000)
      (-221063495357895193356027242267454629960314137911426064001655513/225000000000000000000000000000000000000000000000000000000000000)
      (-85683278006435088590951964888290564723055730500569053735065399/87500000000000000000000000000000000000000000000000000000000000)
      (-384165452345040797121697268583941418831459286898351475469588591/393750000000000000000000000000000000000000000000000000000000000)
      (-191317561190114202796547917211544510921061955684672423573588591/196875000000000000000000000000000000000000000000000000000000000)
      (-31748823267362080460768798311426574495488457163028109309196197/32812500000000000000000000000000000000000000000000000000000000)
      (-2257262192151667940863416702127284522428155354123199453885171/2343750000000000000000000000000000000000000000000000000000000)
      (-374345388921554150514602507044504514700433240510809609295057/390625000000000000000000000000000000000000000000000000000000)
      (-186184969437474644722363427569414031929001107315329817295057/195312500000000000000000000000000000000000000000000000000000)
      t := by
    rw [series_ten, bern]
    ring
  rw [e]
  constructor
  · apply bern_ge t0 t1 <;> norm_num
  · apply bern_le t0 t1 <;> norm_num

theorem eFocus1_4_S {x : ℝ} (h0 : (112477/10000000) ≤ x) (h1 : x ≤ (112477/5000000)) :
    (-1/1000) ≤ pwrSeries x
      [(123689/3125000000000000), (-2496811/100000000000000), (3513897/500000000000), (-8662787/100000),
      (623049/5000000), (9462491/1000), (560223/1250), (-2276206/5), (3026543/10), 8798256] ∧
    pwrSeries x
      [(123689/3125000000000000), (-2496811/100000000000000), (3513897/500000000000), (-8662787/100000),
      (623049/5000000), (9462491/1000), (560223/1250), (-2276206/5), (3026543/10), 8798256] ≤ (-1/10000) := by
  obtain ⟨t, t0, t1, rfl⟩ := between (by norm_num) h0 h1
  have e : pwrSeries ((112477/10000000) + ((112477/5000000) - (112477/10000000)) * t)
      [(123689/3125000000000000), (-2496811/100000000000000), (3513897/500000000000), (-8662787/100000),
      (623049/5000000), (9462491/1000), (560223/1250), (-2276206/5), (3026543/10), 8798256] = bern
      (-7598178043391571097249371853893911330431298236201639975533/62500000000000000000000000000000000000000000000000000000000000)
      (-45483749586315992220165695122406109114694109984608934248547/281250000000000000000000000000000000000000000000000000000000000)
      (-29766585586578640717061310000935349659774463258871858717297/140625000000000000000000000000000000000000000000000000000000000)
      (-14913279022323966406434393867596447400507748939191636922481/54687500000000000000000000000000000000000000000000000000000000)
      (-28383065872166807276654840756448740186348681875542567861193/82031250000000000000000000000000000000000000000000000000000000)
      (-53243587164459538497565919038948396017873191146311924864829/123046875000000000000000000000000000000000000000000000000000000)
      (-10948281561209482212791105852534934845535153274759132048693/20507812500000000000000000000000000000000000000000000000000000)
      (-952722626951556593489081907467205760551351641572577020349/1464843750000000000000000000000000000000000000000000000000000)
      (-573590975905738139695359092292258655293273709764385176599/732421875000000000000000000000000000000000000000000000000000)
      (-113871093552377243794914582277527352491977506870814444283/122070312500000000000000000000000000000000000000000000000000)
      t := by
    rw [series_ten, bern]
    ring
  rw [e]
  constructor
  · apply bern_ge t0 t1 <;> norm_num
  · apply bern_le t0 t1 <;> norm_num

theorem eFocus2_1_T {x : ℝ} (h0 : (1/40) ≤ x) (h1 : x ≤ (11/200)) :
    (8687/10000) ≤ pwrSeries x
      [(1038803/1000000), (-228033/25000), (8943931/10000), (-5619149/100), 2132552, (-53307250), 879940400,
      (-9246033000), 56120730000, (-149954400000)] ∧
    pwrSeries x
      [(1038803/1000000), (-228033/25000), (8943931/10000), (-5619149/100), 2132552, (-53307250), 879940400,
      (-9246033000), 56120730000, (-149954400000)] ≤ (9707/10000) := by
  obtain ⟨t, t0, t1, rfl⟩ := between (by norm_num) h0 h1
  have e : pwrSeries ((1/40) + ((11/200) - (1/40)) * t)
      [(1038803/1000000), (-228033/25000), (8943931/10000), (-5619149/100), 2132552, (-53307250), 879940400,
      (-9246033000), 56120730000, (-149954400000)] = bern
      (15902480359/16384000000) (236653118677/245760000000) (1172563338517/1228800000000) (77374056087/81920000000)
      (8032752360347/8601600000000) (5666696345117/6144000000000) (13045343336629/14336000000000)
      (137759835747493/153600000000000) (678223859294173/768000000000000) (1111974820187039/1280000000000000) t := by
    rw [series_ten, bern]
    ring
  rw [e]
  constructor
  · apply bern_ge t0 t1 <;> norm_num
  · apply bern_le t0 t1 <;> norm_num

theorem eFocus2_1_S {x : ℝ} (h0 : (1/40) ≤ x) (h1 : x ≤ (11/200)) :
    (-61/10000) ≤ pwrSeries x
      [(652577/50000000), (-2585211/1000000), (2696971/10000), (-1488249/100), (1019153/2), (-11541480), 171458000,
      (-1604935000), 8570757000, (-19833020000)] ∧
    pwrSeries x
      [(652577/50000000), (-2585211/1000000), (2696971/10000), (-1488249/100), (1019153/2), (-11541480), 171458000,
      (-1604935000), 8570757000, (-19833020000)] ≤ (41/10000) := by
  obtain ⟨t, t0, t1, rfl⟩ := between (by norm_num) h0 h1
  have e : pwrSeries ((1/40) + ((11/200) - (1/40)) * t)
      [(652577/50000000), (-2585211/1000000), (2696971/10000), (-1488249/100), (1019153/2), (-11541480), 171458000,
      (-1604935000), 8570757000, (-19833020000)] = bern
      (6689349851/1638400000000) (20008562699/4915200000000) (18818205193/4915200000000) (37974878839/11468800000000)
      (432746105059/172032000000000) (1213336568053/860160000000000) (-1356713913/204800000000000)
      (-5325831126637/3072000000000000) (-11577217637279/3072000000000000) (-156060292268671/25600000000000000) t := by
    rw [series_ten, bern]
    ring
  rw [e]
  constructor
  · apply bern_ge t0 t1 <;> norm_num
  · apply bern_le t0 t1 <;> norm_num

theorem eFocus2_2_T {x : ℝ} (h0 : (3/500) ≤ x) (h1 : x ≤ (7/200)) :
    (8961/10000) ≤ pwrSeries x
      [(9989307/10000000), (7299233/10000000), (-146629/500), (1526083/50), (-2753614), 157033100, (-5677804000),
      126501200000, (-1584238000000), 8533351000000] ∧
    pwrSeries x
      [(9989307/10000000), (7299233/10000000), (-146629/500), (1526083/50), (-2753614), 157033100, (-5677804000),
      126501200000, (-1584238000000), 8533351000000] ≤ (623/625) := by
  obtain ⟨t, t0, t1, rfl⟩ := between (by norm_num) h0 h1
  have e : pwrSeries ((3/500) + ((7/200) - (3/500)) * t)
      [(9989307/10000000), (7299233/10000000), (-146629/500), (1526083/50), (-2753614), 157033100, (-5677804000),
      126501200000, (-1584238000000), 8533351000000] = bern
      (1946808534576413733/1953125000000000000) (6984010490019535793/7031250000000000000)
      (925938196984681039/937500000000000000) (857819519128867079/875000000000000000)
      (3056134829509206859/3150000000000000000) (1208785078380302471/1260000000000000000)
      (158846843159757433/168000000000000000) (26805922869507833/28800000000000000) (1170039735634653/1280000000000000)
      (458816135911457/512000000000000) t := by
    rw [series_ten, bern]
    ring
  rw [e]
  constructor
  · apply bern_ge t0 t1 <;> norm_num
  · apply bern_le t0 t1 <;> norm_num

theorem eFocus2_2_S {x : ℝ} (h0 : (3/500) ≤ x) (h1 : x ≤ (7/200)) :
    (3/2000) ≤ pwrSeries x
      [(-3040839/1000000000), (2016667/1000000), (-431359/1000), (5855139/100), (-4873584), 260544400, (-8968899000),
      192369700000, (-2339920000000), 12330140000000] ∧
    pwrSeries x
      [(-3040839/1000000000), (2016667/1000000), (-431359/1000), (5855139/100), (-4873584), 260544400, (-8968899000),
      192369700000, (-2339920000000), 12330140000000] ≤ (127/10000) := by
  obtain ⟨t, t0, t1, rfl⟩ := between (by norm_num) h0 h1
  have e : pwrSeries ((3/500) + ((7/200) - (3/500)) * t)
      [(-3040839/1000000000), (2016667/1000000), (-431359/1000), (5855139/100), (-4873584), 260544400, (-8968899000),
      192369700000, (-2339920000000), 12330140000000] = bern
      (148316403840531/97656250000000000) (852010006723451/351562500000000000) (141526594108123/46875000000000000)
      (171783039036449/37500000000000000) (748946775759563/157500000000000000) (30636287018873/4500000000000000)
      (15657025014889/2100000000000000) (26773653560687/2880000000000000) (6224417699489/576000000000000)
      (324841042949/25600000000000) t := by
    rw [series_ten, bern]
    ring
  rw [e]
  constructor
  · apply bern_ge t0 t1 <;> norm_num
  · apply bern_le t0 t1 <;> norm_num

theorem eFocus2_3_T {x : ℝ} (h0 : (337431/20000000) ≤ x) (h1 : x ≤ (112477/2500000)) :
    (8377/10000) ≤ pwrSeries x
      [1, (-176423/40000000000), (-555297/6250), (-3963797/50000000), (4663277/1000), (-503081/2000), (-898567/5),
      (-380861/2), 8999378, (-29513620)] ∧
    pwrSeries x
      [1, (-176423/40000000000), (-555297/6250), (-3963797/50000000), (4663277/1000), (-503081/2000), (-898567/5),
      (-380861/2), 8999378, (-29513620)] ≤ (9751/10000) := by
  obtain ⟨t, t0, t1, rfl⟩ := between (by norm_num) h0 h1
  have e : pwrSeries ((337431/20000000) + ((112477/2500000) - (337431/20000000)) * t)
      [1, (-176423/40000000000), (-555297/6250), (-3963797/50000000), (4663277/1000), (-503081/2000), (-898567/5),
      (-380861/2), 8999378, (-29513620)] = bern
      (24962112133429206965078645772716402722084428555196026616593149449/25600000000000000000000000000000000000000000000000000000000000000)
      (27820524095557264389950804932503307258782761239055127561175698347/28800000000000000000000000000000000000000000000000000000000000000)
      (3438420090706039856130405204980953456188174959852946119503149449/3600000000000000000000000000000000000000000000000000000000000000)
      (329888952555077372725743424253074844259361697185174977684751709/350000000000000000000000000000000000000000000000000000000000000)
      (365540874455405923000283828291446858359560059335046091738005127/393750000000000000000000000000000000000000000000000000000000000)
      (44921220992871300237093101012403801230651387673398393369751709/49218750000000000000000000000000000000000000000000000000000000)
      (1836782619053600556935242760788664395002525509029062895111301/2050781250000000000000000000000000000000000000000000000000000)
      (96393055025892162816173331064062679062625520740090719123043/109863281250000000000000000000000000000000000000000000000000)
      (11783543302299044421289982327424479019313324063112915957681/13732910156250000000000000000000000000000000000000000000000)
      (159793381297295712241485143131461203202751400618644618803/190734863281250000000000000000000000000000000000000000000)
      t := by
    rw [series_ten, bern]
    ring
  rw [e]
  constructor
  · apply bern_ge t0 t1 <;> norm_num
  · apply bern_le t0 t1 <;> norm_num

theorem eFocus2_3_S {x : ℝ} (h0 : (337431/20000000) ≤ x) (h1 : x ≤ (112477/2500000)) :
    (-1/80) ≤ pwrSeries x
      [(6387813/100000000000000), (-2300899/100000000000), (3676251/1000000000), (-851641/5000), (2066461/100000),
      (1704569/100), (2316653/100), (-1328926), 4853676, 1132796] ∧
    pwrSeries x
      [(6387813/100000000000000), (-2300899/100000000000), (3676251/1000000000), (-851641/5000), (2066461/100000),
      (1704569/100), (2316653/100), (-1328926), 4853676, 1132796] ≤ (-7/10000) := by
  obtain ⟨t, t0, t1, rfl⟩ := between (by norm_num) h0 h1
  have e : pwrSeries ((337431/20000000) + ((112477/2500000) - (337431/20000000)) * t)
      [(6387813/100000000000000), (-2300899/100000000000), (3676251/1000000000), (-851641/5000), (2066461/100000),
      (1704569/100), (2316653/100), (-1328926), 4853676, 1132796] = bern
      (-101407891690967353594184584816115382797238175419819086124514071/128000000000000000000000000000000000000000000000000000000000000000)
      (-176196855261177057278097319126155277623715841489692398286042213/144000000000000000000000000000000000000000000000000000000000000000)
      (-32860711421449791616658873987980455415237319693953710649514071/18000000000000000000000000000000000000000000000000000000000000000)
      (-4603283925457348193782876083687597406801340099100430129966611/1750000000000000000000000000000000000000000000000000000000000000)
      (-7212657198818653643930220393240221876535820294094746802399833/1968750000000000000000000000000000000000000000000000000000000000)
      (-135128784558896879956477601958710110463385547789696183885179/27343750000000000000000000000000000000000000000000000000000000)
      (-66367525234028818971634812942135838518271718274233921385179/10253906250000000000000000000000000000000000000000000000000000)
      (-4533071945351457213002860588785188945258800718328986983597/549316406250000000000000000000000000000000000000000000000000)
      (-78342006036312282507870993373717761144529095595387017911/7629394531250000000000000000000000000000000000000000000000)
      (-11920646277268780025481056015075862771635919590008172637/953674316406250000000000000000000000000000000000000000000)
      t := by
    rw [series_ten, bern]
    ring
  rw [e]
  constructor
  · apply bern_ge t0 t1 <;> norm_num
  · apply bern_le t0 t1 <;> norm_num

theorem eFocus2_4_T {x : ℝ} (h0 : (112477/10000000) ≤ x) (h1 : x ≤ (112477/5000000)) :
    (1861/2000) ≤ pwrSeries x
      [1, (-2512593/500000000000), (-91811/625), (-315047/1250000), (2048799/100), (-2224267/1000), (-2532091),
      (-4613480), 361191100, (-1891951000)] ∧
    pwrSeries x
      [1, (-2512593/500000000000), (-91811/625), (-315047/1250000), (2048799/100), (-2224267/1000), (-2532091),
      (-4613480), 361191100, (-1891951000)] ≤ (4909/5000) := by
  obtain ⟨t, t0, t1, rfl⟩ := between (by norm_num) h0 h1
  have e : pwrSeries ((112477/10000000) + ((112477/5000000) - (112477/10000000)) * t)
      [1, (-2512593/500000000000), (-91811/625), (-315047/1250000), (2048799/100), (-2224267/1000), (-2532091),
      (-4613480), 361191100, (-1891951000)] = bern
      (981737822815054129765443499861612811639914458699028727196813/1000000000000000000000000000000000000000000000000000000000000)
      (1466624975117914976225220496661033211042799111830589183090439/1500000000000000000000000000000000000000000000000000000000000)
      (2189921169958978899114036284990650665368431440977026553771317/2250000000000000000000000000000000000000000000000000000000000)
      (363148920153638746077022623416969540960888637832345186090439/375000000000000000000000000000000000000000000000000000000000)
      (3792059770638794248235952946519573479546352052612561939399219/3937500000000000000000000000000000000000000000000000000000000)
      (1884710843966492424136299223656695970556051342489124970899219/1968750000000000000000000000000000000000000000000000000000000)
      (312102216233233885301625769678637809369010348452979334133073/328125000000000000000000000000000000000000000000000000000000)
      (66420648864840750926866965558372958874839348924571576271317/70312500000000000000000000000000000000000000000000000000000)
      (32968715697500500804219737804108938936640187868330580771317/35156250000000000000000000000000000000000000000000000000000)
      (1817526511016593891856094176892051974286634038537731696813/1953125000000000000000000000000000000000000000000000000000)
      t := by
    rw [series_ten, bern]
    ring
  rw [e]
  constructor
  · apply bern_ge t0 t1 <;> norm_num
  · apply bern_le t0 t1 <;> norm_num

theorem eFocus2_4_S {x : ℝ} (h0 : (112477/10000000) ≤ x) (h1 : x ≤ (112477/5000000)) :
    (3/5000) ≤ pwrSeries x
      [(-1801149/100000000000000), (14041/1250000000), (-1563451/500000000), (931049/2000), (-2715939/50000), (-147773),
      (-192211), 27957610, (-129004600), (-465695100)] ∧
    pwrSeries x
      [(-1801149/100000000000000), (14041/1250000000), (-1563451/500000000), (931049/2000), (-2715939/50000), (-147773),
      (-192211), 27957610, (-129004600), (-465695100)] ≤ (9/2000) := by
  obtain ⟨t, t0, t1, rfl⟩ := between (by norm_num) h0 h1
  have e : pwrSeries ((112477/10000000) + ((112477/5000000) - (112477/10000000)) * t)
      [(-1801149/100000000000000), (14041/1250000000), (-1563451/500000000), (931049/2000), (-2715939/50000), (-147773),
      (-192211), 27957610, (-129004600), (-465695100)] = bern
      (6348749750984244352520875174449258392947578756661858891813/10000000000000000000000000000000000000000000000000000000000000)
      (37829146780964350045051135599492211859764355790021360026317/45000000000000000000000000000000000000000000000000000000000000)
      (24620828246300482553418777839495917918228194853210990026317/22500000000000000000000000000000000000000000000000000000000000)
      (12254688918809103728641187233945294317838154944075482242691/8750000000000000000000000000000000000000000000000000000000000)
      (69432042349981361080337031231188943069293894602756750184219/39375000000000000000000000000000000000000000000000000000000000)
      (14342315694773359222621561263688094060318058930236386728073/6562500000000000000000000000000000000000000000000000000000000)
      (8756185806843622595639588466250920732543184520178856728073/3281250000000000000000000000000000000000000000000000000000000)
      (2259040684998491941913128531978505499489333916034140026317/703125000000000000000000000000000000000000000000000000000000)
      (1342085322425445581338034241511680475635262977973770026317/351562500000000000000000000000000000000000000000000000000000)
      (87505622428028861139172984447849576568244069226488891813/19531250000000000000000000000000000000000000000000000000000)
      t := by
    rw [series_ten, bern]
    ring
  rw [e]
  constructor
  · apply bern_ge t0 t1 <;> norm_num
  · apply bern_le t0 t1 <;> norm_num

theorem eDipole_1_T {x : ℝ} (h0 : (1/40) ≤ x) (h1 : x ≤ (11/200)) :
    (-9587/10000) ≤ pwrSeries x
      [(-201177/200000), (1526489/1000000), (-1047651/10000), (1125013/100), (-4669147/10), 12558410, (-223728700),
      2535541000, (-16569060000), 47583980000] ∧
    pwrSeries x
      [(-201177/200000), (1526489/1000000), (-1047651/10000), (1125013/100), (-4669147/10), 12558410, (-223728700),
      2535541000, (-16569060000), 47583980000] ≤ (-4101/5000) := by
  obtain ⟨t, t0, t1, rfl⟩ := between (by norm_num) h0 h1
  have e : pwrSeries ((1/40) + ((11/200) - (1/40)) * t)
      [(-201177/200000), (1526489/1000000), (-1047651/10000), (1125013/100), (-4669147/10), 12558410, (-223728700),
      2535541000, (-16569060000), 47583980000] = bern
      (-314132982417/327680000000) (-1553141620683/1638400000000) (-1533300806917/1638400000000)
      (-10579052556957/11468800000000) (-10411068382899/11468800000000) (-255757506337957/286720000000000)
      (-1254785465542647/1433600000000000) (-878226002158251/1024000000000000) (-4297007117724761/5120000000000000)
      (-20997624517397091/25600000000000000) t := by
    rw [series_ten, bern]
    ring
  rw [e]
  constructor
  · apply bern_ge t0 t1 <;> norm_num
  · apply bern_le t0 t1 <;> norm_num

theorem eDipole_1_S {x : ℝ} (h0 : (1/40) ≤ x) (h1 : x ≤ (11/200)) :
    (-17/5000) ≤ pwrSeries x
      [(-12931/500000), (5884367/1000000), (-3203769/5000), (972241/25), (-1488484), 37825920, (-636103300), 6817810000,
      (-42271140000), 115559700000] ∧
    pwrSeries x
      [(-12931/500000), (5884367/1000000), (-3203769/5000), (972241/25), (-1488484), 37825920, (-636103300), 6817810000,
      (-42271140000), 115559700000] ≤ (11/1000) := by
  obtain ⟨t, t0, t1, rfl⟩ := between (by norm_num) h0 h1
  have e : pwrSeries ((1/40) + ((11/200) - (1/40)) * t)
      [(-12931/500000), (5884367/1000000), (-3203769/5000), (972241/25), (-1488484), 37825920, (-636103300), 6817810000,
      (-42271140000), 115559700000] = bern
      (-1085906511/327680000000) (-14850383647/4915200000000) (-11950047233/4915200000000) (-17202831571/11468800000000)
      (-1183856353/4915200000000) (34168316453/24576000000000) (957780213979/286720000000000)
      (3453101579197/614400000000000) (25130044461679/3072000000000000) (56271286307847/5120000000000000) t := by
    rw [series_ten, bern]
    ring
  rw [e]
  constructor
  · apply bern_ge t0 t1 <;> norm_num
  · apply bern_le t0 t1 <;> norm_num

theorem eDipole_2_T {x : ℝ} (h0 : (3/500) ≤ x) (h1 : x ≤ (7/200)) :
    (-9957/10000) ≤ pwrSeries x
      [(-2499757/2500000), (-6783669/100000000), (353939/2500), (-295099/100), 264098, (-15707420), 577045000,
      (-13036860000), 165495800000, (-903001700000)] ∧
    pwrSeries x
      [(-2499757/2500000), (-6783669/100000000), (353939/2500), (-295099/100), 264098, (-15707420), 577045000,
      (-13036860000), 165495800000, (-903001700000)] ≤ (-1721/2000) := by
  obtain ⟨t, t0, t1, rfl⟩ := between (by norm_num) h0 h1
  have e : pwrSeries ((3/500) + ((7/200) - (3/500)) * t)
      [(-2499757/2500000), (-6783669/100000000), (353939/2500), (-295099/100), 264098, (-15707420), 577045000,
      (-13036860000), 165495800000, (-903001700000)] = bern
      (-19445446099133280611/19531250000000000000) (-23224140321651002077/23437500000000000000)
      (-27657078426259846139/28125000000000000000) (-8514551185802393693/8750000000000000000)
      (-30241787691800571253/31500000000000000000) (-11901927268449635057/12600000000000000000)
      (-222389165829443873/240000000000000000) (-261082596669573011/288000000000000000)
      (-101885304809131459/115200000000000000) (-4406051398029719/5120000000000000) t := by
    rw [series_ten, bern]
    ring
  rw [e]
  constructor
  · apply bern_ge t0 t1 <;> norm_num
  · apply bern_le t0 t1 <;> norm_num

theorem eDipole_2_S {x : ℝ} (h0 : (3/500) ≤ x) (h1 : x ≤ (7/200)) :
    (-9/2500) ≤ pwrSeries x
      [(2108581/10000000000), (-28911/78125), (2851611/100000), (-1751497/500), (2983061/10), (-15226790), 495802900,
      (-10020400000), 114283500000, (-561706100000)] ∧
    pwrSeries x
      [(2108581/10000000000), (-28911/78125), (2851611/100000), (-1751497/500), (2983061/10), (-15226790), 495802900,
      (-10020400000), 114283500000, (-561706100000)] ≤ (-3/10000) := by
  obtain ⟨t, t0, t1, rfl⟩ := between (by norm_num) h0 h1
  have e : pwrSeries ((3/500) + ((7/200) - (3/500)) * t)
      [(2108581/10000000000), (-28911/78125), (2851611/100000), (-1751497/500), (2983061/10), (-15226790), 495802900,
      (-10020400000), 114283500000, (-561706100000)] = bern
      (-28337087037894163/19531250000000000000) (-51149011251132641/23437500000000000000)
      (-8729672316175193/3125000000000000000) (-86900982677070707/26250000000000000000)
      (-110772991200674449/31500000000000000000) (-4967385269876709/1400000000000000000)
      (-1801296321522071/560000000000000000) (-82496771270607/32000000000000000) (-184921811072747/115200000000000000)
      (-1540910042027/5120000000000000) t := by
    rw [series_ten, bern]
    ring
  rw [e]
  constructor
  · apply bern_ge t0 t1 <;> norm_num
  · apply bern_le t0 t1 <;> norm_num

theorem eQuad_1_T {x : ℝ} (h0 : (1/40) ≤ x) (h1 : x ≤ (11/200)) :
    (8601/10000) ≤ pwrSeries x
      [(1038941/1000000), (-9238897/1000000), (1825589/2000), (-577911/10), 2206120, (-55447640), 919234700,
      (-9691159000), 58969150000, (-157831200000)] ∧
    pwrSeries x
      [(1038941/1000000), (-9238897/1000000), (1825589/2000), (-577911/10), 2206120, (-55447640), 919234700,
      (-9691159000), 58969150000, (-157831200000)] ≤ (1939/2000) := by
  obtain ⟨t, t0, t1, rfl⟩ := between (by norm_num) h0 h1
  have e : pwrSeries ((1/40) + ((11/200) - (1/40)) * t)
      [(1038941/1000000), (-9238897/1000000), (1825589/2000), (-577911/10), 2206120, (-55447640), 919234700,
      (-9691159000), 58969150000, (-157831200000)] = bern
      (79415890689/81920000000) (1181370348323/1228800000000) (1170115146151/1228800000000)
      (2700815526071/2867200000000) (8005280069321/8601600000000) (39495798930137/43008000000000)
      (64875623274979/71680000000000) (136843194887863/153600000000000) (672698208758431/768000000000000)
      (1100990481596277/1280000000000000) t := by
    rw [series_ten, bern]
    ring
  rw [e]
  constructor
  · apply bern_ge t0 t1 <;> norm_num
  · apply bern_le t0 t1 <;> norm_num

theorem eQuad_1_S {x : ℝ} (h0 : (1/40) ≤ x) (h1 : x ≤ (11/200)) :
    (29/5000) ≤ pwrSeries x
      [(39003/312500), (-2923507/100000), (3069331/1000), (-184838), 7094882, (-180111300), 3024208000, (-32392410000),
      200876700000, (-549621700000)] ∧
    pwrSeries x
      [(39003/312500), (-2923507/100000), (3069331/1000), (-184838), 7094882, (-180111300), 3024208000, (-32392410000),
      200876700000, (-549621700000)] ≤ (103/10000) := by
  obtain ⟨t, t0, t1, rfl⟩ := between (by norm_num) h0 h1
  have e : pwrSeries ((1/40) + ((11/200) - (1/40)) * t)
      [(39003/312500), (-2923507/100000), (3069331/1000), (-184838), 7094882, (-180111300), 3024208000, (-32392410000),
      200876700000, (-549621700000)] = bern
      (1929708963/327680000000) (2154365501/327680000000) (2373336771/327680000000) (17912824203/2293760000000)
      (96489182857/11468800000000) (507753873651/57344000000000) (2675115450561/286720000000000)
      (1982696551373/204800000000000) (10239063713343/1024000000000000) (52441849356453/5120000000000000) t := by
    rw [series_ten, bern]
    ring
  rw [e]
  constructor
  · apply bern_ge t0 t1 <;> norm_num
  · apply bern_le t0 t1 <;> norm_num

theorem eQuad_2_T {x : ℝ} (h0 : (3/500) ≤ x) (h1 : x ≤ (7/200)) :
    (2153/2500) ≤ pwrSeries x
      [(1000003/1000000), (-1015639/1000000000), (-607817/5000), (430191/25000), (3921401/1000), (2674841/10),
      (-12362630), 312812800, (-4385795000), 25946310000] ∧
    pwrSeries x
      [(1000003/1000000), (-1015639/1000000000), (-607817/5000), (430191/25000), (3921401/1000), (2674841/10),
      (-12362630), 312812800, (-4385795000), 25946310000] ≤ (9957/10000) := by
  obtain ⟨t, t0, t1, rfl⟩ := between (by norm_num) h0 h1
  have e : pwrSeries ((3/500) + ((7/200) - (3/500)) * t)
      [(1000003/1000000), (-1015639/1000000000), (-607817/5000), (430191/25000), (3921401/1000), (2674841/10),
      (-12362630), 312812800, (-4385795000), 25946310000] = bern
      (194459180933598412223/195312500000000000000) (696760462309291071533/703125000000000000000)
      (276598556805178018577/281250000000000000000) (85156692402099372599/87500000000000000000)
      (302497891897760412229/315000000000000000000) (119053287475982479351/126000000000000000000)
      (15574309692987023873/16800000000000000000) (2612251951320381373/2880000000000000000)
      (1019566084572158887/1152000000000000000) (44098173596017717/51200000000000000) t := by
    rw [series_ten, bern]
    ring
  rw [e]
  constructor
  · apply bern_ge t0 t1 <;> norm_num
  · apply bern_le t0 t1 <;> norm_num

theorem eQuad_2_S {x : ℝ} (h0 : (3/500) ≤ x) (h1 : x ≤ (7/200)) :
    (-13/2000) ≤ pwrSeries x
      [(-281/16000000), (2603597/10000000), (-1275561/500000), (-2420319/50000), (-2870201/100), 1552398, (-51352000),
      1075958000, (-12774250000), 65407480000] ∧
    pwrSeries x
      [(-281/16000000), (2603597/10000000), (-1275561/500000), (-2420319/50000), (-2870201/100), 1552398, (-51352000),
      1075958000, (-12774250000), 65407480000] ≤ (29/10000) := by
  obtain ⟨t, t0, t1, rfl⟩ := between (by norm_num) h0 h1
  have e : pwrSeries ((3/500) + ((7/200) - (3/500)) * t)
      [(-281/16000000), (2603597/10000000), (-1275561/500000), (-2420319/50000), (-2870201/100), 1552398, (-51352000),
      1075958000, (-12774250000), 65407480000] = bern
      (17273653510701899/12207031250000000000) (366387295508783891/175781250000000000000)
      (45484740694740301/17578125000000000000) (185141332562717819/65625000000000000000)
      (273348845070131/102539062500000000) (21492518947403209/10500000000000000000)
      (3651227377684321/4200000000000000000) (-109494473801759/120000000000000000) (-240441708519719/72000000000000000)
      (-82236712051741/12800000000000000) t := by
    rw [series_ten, bern]
    ring
  rw [e]
  constructor
  · apply bern_ge t0 t1 <;> norm_num
  · apply bern_le t0 t1 <;> norm_num

theorem eQuad_3_T {x : ℝ} (h0 : (337431/20000000) ≤ x) (h1 : x ≤ (112477/2500000)) :
    (3511/5000) ≤ pwrSeries x
      [1, (6239107/1000000000000), (-1697479/10000), (3444883/100000000), (1225241/100), (-1663533/10000), (-1105329/2),
      (-3593353/10), 27495800, (-96898700)] ∧
    pwrSeries x
      [1, (6239107/1000000000000), (-1697479/10000), (3444883/100000000), (1225241/100), (-1663533/10000), (-1105329/2),
      (-3593353/10), 27495800, (-96898700)] ≤ (9527/10000) := by
  obtain ⟨t, t0, t1, rfl⟩ := between (by norm_num) h0 h1
  have e : pwrSeries ((337431/20000000) + ((112477/2500000) - (337431/20000000)) * t)
      [1, (6239107/1000000000000), (-1697479/10000), (3444883/100000000), (1225241/100), (-1663533/10000), (-1105329/2),
      (-3593353/10), 27495800, (-96898700)] = bern
      (4877626759482700059737872208336726111247815192863466096562397523/5120000000000000000000000000000000000000000000000000000000000000)
      (5388404409225667958988626134990826982359865410683608489362192569/5760000000000000000000000000000000000000000000000000000000000000)
      (658820765569855878738999144996838708040474666128420539574897523/720000000000000000000000000000000000000000000000000000000000000)
      (187213383418585288883233386645933686433968203840144814608253629/210000000000000000000000000000000000000000000000000000000000000)
      (68129113439408699618549744439358394196713647436357469095753629/78750000000000000000000000000000000000000000000000000000000000)
      (2743923148961332885198225293996157805303495597711780224528181/3281250000000000000000000000000000000000000000000000000000000)
      (330239867498980518201086526148717233710851764805897162342727/410156250000000000000000000000000000000000000000000000000000)
      (16967744431373205849370239629177037110959123725586366048961/21972656250000000000000000000000000000000000000000000000000)
      (2026421388263073289421260050995027114914622355387251182987/2746582031250000000000000000000000000000000000000000000000)
      (26788559285309072741641375169405286134400194204991710481/38146972656250000000000000000000000000000000000000000000)
      t := by
    rw [series_ten, bern]
    ring
  rw [e]
  constructor
  · apply bern_ge t0 t1 <;> norm_num
  · apply bern_le t0 t1 <;> norm_num

theorem eQuad_3_S {x : ℝ} (h0 : (337431/20000000) ≤ x) (h1 : x ≤ (112477/2500000)) :
    (-23/1000) ≤ pwrSeries x
      [(532177/2500000000000), (-3992809/50000000000), (1240259/100000000), (-3211339/10000), (7098731/100000),
      (868663/25), (1637429/20), (-3731688), 18020530, (-18199580)] ∧
    pwrSeries x
      [(532177/2500000000000), (-3992809/50000000000), (1240259/100000000), (-3211339/10000), (7098731/100000),
      (868663/25), (1637429/20), (-3731688), 18020530, (-18199580)] ≤ (-7/5000) := by
  obtain ⟨t, t0, t1, rfl⟩ := between (by norm_num) h0 h1
  have e : pwrSeries ((337431/20000000) + ((112477/2500000) - (337431/20000000)) * t)
      [(532177/2500000000000), (-3992809/50000000000), (1240259/100000000), (-3211339/10000), (7098731/100000),
      (868663/25), (1637429/20), (-3731688), 18020530, (-18199580)] = bern
      (-38042561591231808297299708814611512588154440378178225760923309/25600000000000000000000000000000000000000000000000000000000000000)
      (-66042687328349722995419151117716106964105996011561552226519927/28800000000000000000000000000000000000000000000000000000000000000)
      (-12303327633649747887410320089527360402462426007951350723423309/3600000000000000000000000000000000000000000000000000000000000000)
      (-5163144674525696821770319424955382533539440846885217214745907/1050000000000000000000000000000000000000000000000000000000000000)
      (-2691724020622325983550714064022009168332458790507925533495907/393750000000000000000000000000000000000000000000000000000000000)
      (-452835983391139242150980452836306565030969997116461284081969/49218750000000000000000000000000000000000000000000000000000000)
      (-24644050376925852372259401078363238427295003840980265592441/2050781250000000000000000000000000000000000000000000000000000)
      (-559272011191262340584243085791065222397786211421605802021/36621093750000000000000000000000000000000000000000000000000)
      (-260006055559197304739733561484853202306450053183437052021/13732910156250000000000000000000000000000000000000000000000)
      (-4377800640666611121932151744955374930063064396121048223/190734863281250000000000000000000000000000000000000000000)
      t := by
    rw [series_ten, bern]
    ring
  rw [e]
  constructor
  · apply bern_ge t0 t1 <;> norm_num
  · apply bern_le t0 t1 <;> norm_num

theorem eQuad_4_T {x : ℝ} (h0 : (112477/10000000) ≤ x) (h1 : x ≤ (112477/5000000)) :
    (7701/10000) ≤ pwrSeries x
      [(4999373/5000000), (-607823/25000000000), (-2509569/5000), (-588169/500000), (503027/5), (-1981761/200),
      (-11480280), (-19227070), 1432258000, (-7054482000)] ∧
    pwrSeries x
      [(4999373/5000000), (-607823/25000000000), (-2509569/5000), (-588169/500000), (503027/5), (-1981761/200),
      (-11480280), (-19227070), 1432258000, (-7054482000)] ≤ (469/500) := by
  obtain ⟨t, t0, t1, rfl⟩ := between (by norm_num) h0 h1
  have e : pwrSeries ((112477/10000000) + ((112477/5000000) - (112477/10000000)) * t)
      [(4999373/5000000), (-607823/25000000000), (-2509569/5000), (-588169/500000), (503027/5), (-1981761/200),
      (-11480280), (-19227070), 1432258000, (-7054482000)] = bern
      (468980112440386080173579418801694659856672773121955168901083/500000000000000000000000000000000000000000000000000000000000)
      (693411148625149707197828956482552768698565482683370091703249/750000000000000000000000000000000000000000000000000000000000)
      (1023334206389914280509677454137259216514647863394155280109747/1125000000000000000000000000000000000000000000000000000000000)
      (390809036585755920600201346483011766089725839323124527307581/437500000000000000000000000000000000000000000000000000000000)
      (574593684257229560717366292903977473629626513932624426922743/656250000000000000000000000000000000000000000000000000000000)
      (120459501897431092366824800002678917145061661775477795109747/140625000000000000000000000000000000000000000000000000000000)
      (137232393750448743119647893410323301306962733599844866922743/164062500000000000000000000000000000000000000000000000000000)
      (28661653929856421504418026962932617129113195987349055109747/35156250000000000000000000000000000000000000000000000000000)
      (1549046159853363372393380567764453187738587631175728901083/1953125000000000000000000000000000000000000000000000000000)
      (752066756852161397496656392734843890798964640593923901083/976562500000000000000000000000000000000000000000000000000)
      t := by
    rw [series_ten, bern]
    ring
  rw [e]
  constructor
  · apply bern_ge t0 t1 <;> norm_num
  · apply bern_le t0 t1 <;> norm_num

theorem eQuad_4_S {x : ℝ} (h0 : (112477/10000000) ≤ x) (h1 : x ≤ (112477/5000000)) :
    (-223/10000) ≤ pwrSeries x
      [(300167/5000000000000), (-1482633/100000000), (103759/10000000), (-55886/25), (895003/5000), (3228441/5), 626102,
      (-105547700), 411050200, 2241301000] ∧
    pwrSeries x
      [(300167/5000000000000), (-1482633/100000000), (103759/10000000), (-55886/25), (895003/5000), (3228441/5), 626102,
      (-105547700), 411050200, 2241301000] ≤ (-2/625) := by
  obtain ⟨t, t0, t1, rfl⟩ := between (by norm_num) h0 h1
  have e : pwrSeries ((112477/10000000) + ((112477/5000000) - (112477/10000000)) * t)
      [(300167/5000000000000), (-1482633/100000000), (103759/10000000), (-55886/25), (895003/5000), (3228441/5), 626102,
      (-105547700), 411050200, 2241301000] = bern
      (-3228243169921198402682738147662197683841574269572889420863/1000000000000000000000000000000000000000000000000000000000000)
      (-19088397976285790815968868290741876415810094573616535787767/4500000000000000000000000000000000000000000000000000000000000)
      (-12349238980586704688576639524052597911887435896702066787767/2250000000000000000000000000000000000000000000000000000000000)
      (-18356136030915906991559590588414331805860636422629394838123/2625000000000000000000000000000000000000000000000000000000000)
      (-34551520015252564607237044701749377619218798488236901514369/3937500000000000000000000000000000000000000000000000000000000)
      (-21362102907872818054948478036915004781061281437960618514369/1968750000000000000000000000000000000000000000000000000000000)
      (-1447012220462505314379115737002983042616435624117703946041/109375000000000000000000000000000000000000000000000000000000)
      (-373061095857845205614546459561648147362727548834907262589/23437500000000000000000000000000000000000000000000000000000)
      (-664867344895120186458896220644882038529702523340252787767/35156250000000000000000000000000000000000000000000000000000)
      (-43372164481867345992926479083032150027911119533420420863/1953125000000000000000000000000000000000000000000000000000)
      t := by
    rw [series_ten, bern]
    ring
  rw [e]
  constructor
  · apply bern_ge t0 t1 <;> norm_num
  · apply bern_le t0 t1 <;> norm_num

theorem hMono_1_T {x : ℝ} (h0 : (1/40) ≤ x) (h1 : x ≤ (11/200)) :
    (458/625) ≤ pwrSeries x
      [(212917/125000), (-1671357/10000), (1697657/100), (-9843253/10), 35181780, (-804308400), 11657600000,
      (-101472100000), 463285100000, (-760479600000)] ∧
    pwrSeries x
      [(212917/125000), (-1671357/10000), (1697657/100), (-9843253/10), 35181780, (-804308400), 11657600000,
      (-101472100000), 463285100000, (-760479600000)] ≤ (9381/10000) := by
  obtain ⟨t, t0, t1, rfl⟩ := between (by norm_num) h0 h1
  have e : pwrSeries ((1/40) + ((11/200) - (1/40)) * t)
      [(212917/125000), (-1671357/10000), (1697657/100), (-9843253/10), 35181780, (-804308400), 11657600000,
      (-101472100000), 463285100000, (-760479600000)] = bern
      (15369395079/16384000000) (45330685519/49152000000) (44439020957/49152000000) (506789614151/573440000000)
      (7418511912331/8601600000000) (36072818584021/43008000000000) (58314935205017/71680000000000)
      (121050835380803/153600000000000) (584074856635613/768000000000000) (938028069295041/1280000000000000) t := by
    rw [series_ten, bern]
    ring
  rw [e]
  constructor
  · apply bern_ge t0 t1 <;> norm_num
  · apply bern_le t0 t1 <;> norm_num

theorem hMono_1_S {x : ℝ} (h0 : (1/40) ≤ x) (h1 : x ≤ (11/200)) :
    (-9/1000) ≤ pwrSeries x
      [(1452657/100000), (-68191/20), (3524921/10), (-21066630), 802285600, (-20194810000), 336059700000,
      (-3565836000000), 21896680000000, (-59302410000000)] ∧
    pwrSeries x
      [(1452657/100000), (-68191/20), (3524921/10), (-21066630), 802285600, (-20194810000), 336059700000,
      (-3565836000000), 21896680000000, (-59302410000000)] ≤ (49/10000) := by
  obtain ⟨t, t0, t1, rfl⟩ := between (by norm_num) h0 h1
  have e : pwrSeries ((1/40) + ((11/200) - (1/40)) * t)
      [(1452657/100000), (-68191/20), (3524921/10), (-21066630), 802285600, (-20194810000), 336059700000,
      (-3565836000000), 21896680000000, (-59302410000000)] = bern
      (12441251/3276800000) (9818381/3276800000) (15850563/3276800000) (-7833349/22937600000) (546775561/114688000000)
      (-1384147677/573440000000) (-661539647/2867200000000) (-8387461411/2048000000000) (-61760431041/10240000000000)
      (-459813585931/51200000000000) t := by
    rw [series_ten, bern]
    ring
  rw [e]
  constructor
  · apply bern_ge t0 t1 <;> norm_num
  · apply bern_le t0 t1 <;> norm_num

theorem hMono_2_T {x : ℝ} (h0 : (3/500) ≤ x) (h1 : x ≤ (7/200)) :
    (464/625) ≤ pwrSeries x
      [(250807/250000), (-891703/500000), (176533/1000), (-5326467/100), 4242623, (-213967200), 6970488000,
      (-141195800000), 1617248000000, (-8000662000000)] ∧
    pwrSeries x
      [(250807/250000), (-891703/500000), (176533/1000), (-5326467/100), 4242623, (-213967200), 6970488000,
      (-141195800000), 1617248000000, (-8000662000000)] ≤ (2479/2500) := by
  obtain ⟨t, t0, t1, rfl⟩ := between (by norm_num) h0 h1
  have e : pwrSeries ((3/500) + ((7/200) - (3/500)) * t)
      [(250807/250000), (-891703/500000), (176533/1000), (-5326467/100), 4242623, (-213967200), 6970488000,
      (-141195800000), 1617248000000, (-8000662000000)] = bern
      (968262244891441927/976562500000000000) (3453392395173950267/3515625000000000000)
      (1361402081542348823/1406250000000000000) (59233929239923043/62500000000000000)
      (484950362146122907/525000000000000000) (563125727423198449/630000000000000000)
      (72305853437274677/84000000000000000) (3954767301899659/4800000000000000) (501910651743007/640000000000000)
      (190054468660883/256000000000000) t := by
    rw [series_ten, bern]
    ring
  rw [e]
  constructor
  · apply bern_ge t0 t1 <;> norm_num
  · apply bern_le t0 t1 <;> norm_num

theorem hMono_2_S {x : ℝ} (h0 : (3/500) ≤ x) (h1 : x ≤ (7/200)) :
    (7/5000) ≤ pwrSeries x
      [(-1581533/1000000000), (319361/250000), (-685627/2500), (3966879/100), (-3513478), 196293900, (-6991916000),
      153970800000, (-1910236000000), 10210160000000] ∧
    pwrSeries x
      [(-1581533/1000000000), (319361/250000), (-685627/2500), (3966879/100), (-3513478), 196293900, (-6991916000),
      153970800000, (-1910236000000), 10210160000000] ≤ (43/10000) := by
  obtain ⟨t, t0, t1, rfl⟩ := between (by norm_num) h0 h1
  have e : pwrSeries ((3/500) + ((7/200) - (3/500)) * t)
      [(-1581533/1000000000), (319361/250000), (-685627/2500), (3966879/100), (-3513478), 196293900, (-6991916000),
      153970800000, (-1910236000000), 10210160000000] = bern
      (71545717153907/48828125000000000) (12065959415281/5493164062500000) (384453365500381/140625000000000000)
      (160016379202567/43750000000000000) (260246193233251/78750000000000000) (14727073417101/3500000000000000)
      (174490690503/50000000000000) (816431329799/240000000000000) (190869693137/72000000000000)
      (11282699599/6400000000000) t := by
    rw [series_ten, bern]
    ring
  rw [e]
  constructor
  · apply bern_ge t0 t1 <;> norm_num
  · apply bern_le t0 t1 <;> norm_num

theorem hMono_3_T {x : ℝ} (h0 : (337431/20000000) ≤ x) (h1 : x ≤ (112477/2500000)) :
    (1401/2500) ≤ pwrSeries x
      [(999999/1000000), (3477993/10000000000), (-1358997/5000), (569297/125000), (3083481/100), (1688263/200),
      (-2439843), 1322379, 150175000, (-682213500)] ∧
    pwrSeries x
      [(999999/1000000), (3477993/10000000000), (-1358997/5000), (569297/125000), (3083481/100), (1688263/200),
      (-2439843), 1322379, 150175000, (-682213500)] ≤ (2313/2500) := by
  obtain ⟨t, t0, t1, rfl⟩ := between (by norm_num) h0 h1
  have e : pwrSeries ((337431/20000000) + ((112477/2500000) - (337431/20000000)) * t)
      [(999999/1000000), (3477993/10000000000), (-1358997/5000), (569297/125000), (3083481/100), (1688263/200),
      (-2439843), 1322379, 150175000, (-682213500)] = bern
      (947317090947758809321769434738512743623690792347681883757393283/1024000000000000000000000000000000000000000000000000000000000000)
      (344937134267133370349338097144146865463272777786364044382393283/384000000000000000000000000000000000000000000000000000000000000)
      (13865148328767972722530761945482861438744105428504621736932587/16000000000000000000000000000000000000000000000000000000000000)
      (34881349123726595892787199120461892604761364501007140283528109/42000000000000000000000000000000000000000000000000000000000000)
      (593019761892957556486349300939793464987552960097513703977529/750000000000000000000000000000000000000000000000000000000000)
      (1472265811035064034458173421001065255999147632238931552842703/1968750000000000000000000000000000000000000000000000000000000)
      (57636808639868766410759777940061664115787553021357811426967/82031250000000000000000000000000000000000000000000000000000)
      (960714297745490318268716938024832848558073731375461258427/1464843750000000000000000000000000000000000000000000000000)
      (111368931612806327628041748535642059159160711710153752809/183105468750000000000000000000000000000000000000000000000)
      (4275661778328901186519628437558029755432803607447639201/7629394531250000000000000000000000000000000000000000000)
      t := by
    rw [series_ten, bern]
    ring
  rw [e]
  constructor
  · apply bern_ge t0 t1 <;> norm_num
  · apply bern_le t0 t1 <;> norm_num

theorem hMono_3_S {x : ℝ} (h0 : (337431/20000000) ≤ x) (h1 : x ≤ (112477/2500000)) :
    (-13/1000) ≤ pwrSeries x
      [(427271/250000000000), (-3120253/5000000000), (506639/5000000), (-1324669/5000), (5944163/10000), 45889,
      (3555259/5), (-22265740), 165852400, (-397645900)] ∧
    pwrSeries x
      [(427271/250000000000), (-3120253/5000000000), (506639/5000000), (-1324669/5000), (5944163/10000), 45889,
      (3555259/5), (-22265740), 165852400, (-397645900)] ≤ (-11/10000) := by
  obtain ⟨t, t0, t1, rfl⟩ := between (by norm_num) h0 h1
  have e : pwrSeries ((337431/20000000) + ((112477/2500000) - (337431/20000000)) * t)
      [(427271/250000000000), (-3120253/5000000000), (506639/5000000), (-1324669/5000), (5944163/10000), 45889,
      (3555259/5), (-22265740), 165852400, (-397645900)] = bern
      (-5799117354346425041662908159320932966790025123482395569219389/5120000000000000000000000000000000000000000000000000000000000000)
      (-9955991897259181223041194524870387274035455593006294557658167/5760000000000000000000000000000000000000000000000000000000000000)
      (-609294079096654186685642047418690766590739522752926656406463/240000000000000000000000000000000000000000000000000000000000000)
      (-250867082725207476906292612442716861093841705956651349427249/70000000000000000000000000000000000000000000000000000000000000)
      (-382817457034057165368099920308592183114568134829433398281747/78750000000000000000000000000000000000000000000000000000000000)
      (-8918047565111391670053021340131924357779581215766678489607/1406250000000000000000000000000000000000000000000000000000000)
      (-3269271408756865368614801378637376120630127093979799936361/410156250000000000000000000000000000000000000000000000000000)
      (-212586383339420290284593341821377166788420182068764276623/21972656250000000000000000000000000000000000000000000000000)
      (-31234870314841711011689903793989215712864648525971425541/2746582031250000000000000000000000000000000000000000000000)
      (-495183272212246919634982726046969387652920308945237983/38146972656250000000000000000000000000000000000000000000)
      t := by
    rw [series_ten, bern]
    ring
  rw [e]
  constructor
  · apply bern_ge t0 t1 <;> norm_num
  · apply bern_le t0 t1 <;> norm_num

theorem hMono_4_T {x : ℝ} (h0 : (112477/10000000) ≤ x) (h1 : x ≤ (112477/5000000)) :
    (6519/10000) ≤ pwrSeries x
      [1, (-1089739/25000000000), (-792387/1000), (-2472669/1000000), (1120689/5), (-1269643/50), (-33854800),
      (-63751340), 5652166000, (-33558770000)] ∧
    pwrSeries x
      [1, (-1089739/25000000000), (-792387/1000), (-2472669/1000000), (1120689/5), (-1269643/50), (-33854800),
      (-63751340), 5652166000, (-33558770000)] ≤ (9033/10000) := by
  obtain ⟨t, t0, t1, rfl⟩ := between (by norm_num) h0 h1
  have e : pwrSeries ((112477/10000000) + ((112477/5000000) - (112477/10000000)) * t)
      [1, (-1089739/25000000000), (-792387/1000), (-2472669/1000000), (1120689/5), (-1269643/50), (-33854800),
      (-63751340), 5652166000, (-33558770000)] = bern
      (90326461123940640955097022065777333128093606945533596005551/100000000000000000000000000000000000000000000000000000000000)
      (397139758688739124966241744407690030239450384870018041049959/450000000000000000000000000000000000000000000000000000000000)
      (193406474282669899320775998699731431591665710417096218049959/225000000000000000000000000000000000000000000000000000000000)
      (73025171747432504706337355603689103703613091561917585038857/87500000000000000000000000000000000000000000000000000000000)
      (318021871767938745696663745844571558645449997502880504349713/393750000000000000000000000000000000000000000000000000000000)
      (51127124500562150442407638380734450002601747752180081116571/65625000000000000000000000000000000000000000000000000000000)
      (8192138563466792415825072328996941986395256813137498038857/10937500000000000000000000000000000000000000000000000000000)
      (560653995854624747095107558192933813385792883936067005551/781250000000000000000000000000000000000000000000000000000)
      (802999951382158794158633193524054172584376874559260016653/1171875000000000000000000000000000000000000000000000000000)
      (127341394177140011745562051070051159846142053199273005551/195312500000000000000000000000000000000000000000000000000)
      t := by
    rw [series_ten, bern]
    ring
  rw [e]
  constructor
  · apply bern_ge t0 t1 <;> norm_num
  · apply bern_le t0 t1 <;> norm_num

theorem hMono_4_S {x : ℝ} (h0 : (112477/10000000) ≤ x) (h1 : x ≤ (112477/5000000)) :
    (-2/625) ≤ pwrSeries x
      [(581573/5000000000000), (-3651009/50000000000), (2048587/100000000), (-1844847/5000), (3632907/10000),
      (878919/5), 1327057, (-95206450), 940670900, (-2139562000)] ∧
    pwrSeries x
      [(581573/5000000000000), (-3651009/50000000000), (2048587/100000000), (-1844847/5000), (3632907/10000),
      (878919/5), 1327057, (-95206450), 940670900, (-2139562000)] ≤ (-1/2500) := by
  obtain ⟨t, t0, t1, rfl⟩ := between (by norm_num) h0 h1
  have e : pwrSeries ((112477/10000000) + ((112477/5000000) - (112477/10000000)) * t)
      [(581573/5000000000000), (-3651009/50000000000), (2048587/100000000), (-1844847/5000), (3632907/10000),
      (878919/5), 1327057, (-95206450), 940670900, (-2139562000)] = bern
      (-242463856662928175888671073781689115920420455144807212897/500000000000000000000000000000000000000000000000000000000000)
      (-1437692846445325546979446401586525678822127100290822166073/2250000000000000000000000000000000000000000000000000000000000)
      (-930269821992210981448591081854856215189011797559629416073/1125000000000000000000000000000000000000000000000000000000000)
      (-459829513424481563588756295651609118036887687974200740279/437500000000000000000000000000000000000000000000000000000000)
      (-2584063147763320603666239167669044321672531403586957412511/1968750000000000000000000000000000000000000000000000000000000)
      (-528711859343057655153049407465986989161877031124952720837/328125000000000000000000000000000000000000000000000000000000)
      (-106419051898506514135304262599389315462467792903500990279/54687500000000000000000000000000000000000000000000000000000)
      (-81343618047776370161951770854935043906170058122415666073/35156250000000000000000000000000000000000000000000000000000)
      (-47653794539886018384139359391595378417070540078722916073/17578125000000000000000000000000000000000000000000000000000)
      (-3059335280298337912678769501972578127492732257364462897/976562500000000000000000000000000000000000000000000000000)
      t := by
    rw [series_ten, bern]
    ring
  rw [e]
  constructor
  · apply bern_ge t0 t1 <;> norm_num
  · apply bern_le t0 t1 <;> norm_num

theorem hDipole_1_T {x : ℝ} (h0 : (1/40) ≤ x) (h1 : x ≤ (11/200)) :
    (431/625) ≤ pwrSeries x
      [(6853803/10000000), (3537707/50000), (-7117391/1000), (1992837/5), (-14428880), 344636900, (-5420826000),
      54146890000, (-311621600000), 786971700000] ∧
    pwrSeries x
      [(6853803/10000000), (3537707/50000), (-7117391/1000), (1992837/5), (-14428880), 344636900, (-5420826000),
      54146890000, (-311621600000), 786971700000] ≤ (9253/10000) := by
  obtain ⟨t, t0, t1, rfl⟩ := between (by norm_num) h0 h1
  have e : pwrSeries ((1/40) + ((11/200) - (1/40)) * t)
      [(6853803/10000000), (3537707/50000), (-7117391/1000), (1992837/5), (-14428880), 344636900, (-5420826000),
      54146890000, (-311621600000), 786971700000] = bern
      (303198517409/327680000000) (890874926989/983040000000) (173943089479/196608000000) (282214133103/327680000000)
      (28751898819977/34406400000000) (139112872625507/172032000000000) (223706315654219/286720000000000)
      (461255069027581/614400000000000) (2213385395908351/3072000000000000) (3531184176910247/5120000000000000) t := by
    rw [series_ten, bern]
    ring
  rw [e]
  constructor
  · apply bern_ge t0 t1 <;> norm_num
  · apply bern_le t0 t1 <;> norm_num

theorem hDipole_1_S {x : ℝ} (h0 : (1/40) ≤ x) (h1 : x ≤ (11/200)) :
    (-51/2000) ≤ pwrSeries x
      [(510551/500000), (-2441117/10000), (1287637/50), (-1569273), 60901180, (-1562284000), 26492890000,
      (-286413900000), 1791634000000, (-4941947000000)] ∧
    pwrSeries x
      [(510551/500000), (-2441117/10000), (1287637/50), (-1569273), 60901180, (-1562284000), 26492890000,
      (-286413900000), 1791634000000, (-4941947000000)] ≤ (3/2500) := by
  obtain ⟨t, t0, t1, rfl⟩ := between (by norm_num) h0 h1
  have e : pwrSeries ((1/40) + ((11/200) - (1/40)) * t)
      [(510551/500000), (-2441117/10000), (1287637/50), (-1569273), 60901180, (-1562284000), 26492890000,
      (-286413900000), 1791634000000, (-4941947000000)] = bern
      (36495521/32768000000) (-365361/32768000000) (-9741011/6553600000) (-127119793/32768000000)
      (-278325381/45875200000) (-7936637257/819200000000) (-368596556789/28672000000000) (-347899860897/20480000000000)
      (-2158009873067/102400000000000) (-13013970939577/512000000000000) t := by
    rw [series_ten, bern]
    ring
  rw [e]
  constructor
  · apply bern_ge t0 t1 <;> norm_num
  · apply bern_le t0 t1 <;> norm_num

theorem hDipole_2_T {x : ℝ} (h0 : (3/500) ≤ x) (h1 : x ≤ (7/200)) :
    (1741/2500) ≤ pwrSeries x
      [(1014129/1000000), (-501019/62500), (1631339/1000), (-1280913/5), 21153550, (-1118723000), 38210290000,
      (-814024800000), 9839613000000, (-51541370000000)] ∧
    pwrSeries x
      [(1014129/1000000), (-501019/62500), (1631339/1000), (-1280913/5), 21153550, (-1118723000), 38210290000,
      (-814024800000), 9839613000000, (-51541370000000)] ≤ (4949/5000) := by
  obtain ⟨t, t0, t1, rfl⟩ := between (by norm_num) h0 h1
  have e : pwrSeries ((3/500) + ((7/200) - (3/500)) * t)
      [(1014129/1000000), (-501019/62500), (1631339/1000), (-1280913/5), 21153550, (-1118723000), 38210290000,
      (-814024800000), 9839613000000, (-51541370000000)] = bern
      (193302855654101079/195312500000000000) (687864365486612669/703125000000000000)
      (270588420857326901/281250000000000000) (81863205663159867/87500000000000000)
      (31835755456689693/35000000000000000) (12193427949470147/14000000000000000) (14014889080035089/16800000000000000)
      (2274319542029749/2880000000000000) (857490377331271/1152000000000000) (35657307852501/51200000000000) t := by
    rw [series_ten, bern]
    ring
  rw [e]
  constructor
  · apply bern_ge t0 t1 <;> norm_num
  · apply bern_le t0 t1 <;> norm_num

theorem hDipole_2_S {x : ℝ} (h0 : (3/500) ≤ x) (h1 : x ≤ (7/200)) :
    (-19/5000) ≤ pwrSeries x
      [(-2344357/500000000), (3299051/1000000), (-506371/625), (581907/5), (-10173310), 560733000, (-19673000000),
      426138800000, (-5194592000000), 27253700000000] ∧
    pwrSeries x
      [(-2344357/500000000), (3299051/1000000), (-506371/625), (581907/5), (-10173310), 560733000, (-19673000000),
      426138800000, (-5194592000000), 27253700000000] ≤ (19/5000) := by
  obtain ⟨t, t0, t1, rfl⟩ := between (by norm_num) h0 h1
  have e : pwrSeries ((3/500) + ((7/200) - (3/500)) * t)
      [(-2344357/500000000), (3299051/1000000), (-506371/625), (581907/5), (-10173310), 560733000, (-19673000000),
      426138800000, (-5194592000000), 27253700000000] = bern
      (28235013394211/19531250000000000) (146917266328547/70312500000000000) (63112013023157/28125000000000000)
      (4663032509421/1250000000000000) (1482426065363/900000000000000) (4618219483313/1400000000000000)
      (547790505979/560000000000000) (69589895273/288000000000000) (-185949399869/115200000000000)
      (-3805535549/1024000000000) t := by
    rw [series_ten, bern]
    ring
  rw [e]
  constructor
  · apply bern_ge t0 t1 <;> norm_num
  · apply bern_le t0 t1 <;> norm_num

theorem hQuad_1_T {x : ℝ} (h0 : (1/40) ≤ x) (h1 : x ≤ (11/200)) :
    (-4727/5000) ≤ pwrSeries x
      [(-249679/125000), (2439177/10000), (-653431/25), 1627837, (-64296250), 1676173000, (-28854550000), 316367500000,
      (-2005326000000), 5600545000000] ∧
    pwrSeries x
      [(-249679/125000), (2439177/10000), (-653431/25), 1627837, (-64296250), 1676173000, (-28854550000), 316367500000,
      (-2005326000000), 5600545000000] ≤ (-1899/2500) := by
  obtain ⟨t, t0, t1, rfl⟩ := between (by norm_num) h0 h1
  have e : pwrSeries ((1/40) + ((11/200) - (1/40)) * t)
      [(-249679/125000), (2439177/10000), (-653431/25), 1627837, (-64296250), 1676173000, (-28854550000), 316367500000,
      (-2005326000000), 5600545000000] = bern
      (-30978705011/32768000000) (-30513887069/32768000000) (-5997630871/6553600000) (-205753367627/229376000000)
      (-40273004833/45875200000) (-981923247031/1146880000000) (-4783248420509/5734400000000)
      (-663614436437/819200000000) (-16084355549123/20480000000000) (-77783086969921/102400000000000) t := by
    rw [series_ten, bern]
    ring
  rw [e]
  constructor
  · apply bern_ge t0 t1 <;> norm_num
  · apply bern_le t0 t1 <;> norm_num

theorem hQuad_1_S {x : ℝ} (h0 : (1/40) ≤ x) (h1 : x ≤ (11/200)) :
    (-53/10000) ≤ pwrSeries x
      [(-154419/62500), (2931451/5000), (-6135071/100), 3711527, (-143126700), 3649414000, (-61535700000), 661785900000,
      (-4119861000000), 11313900000000] ∧
    pwrSeries x
      [(-154419/62500), (2931451/5000), (-6135071/100), 3711527, (-143126700), 3649414000, (-61535700000), 661785900000,
      (-4119861000000), 11313900000000] ≤ 0 := by
  obtain ⟨t, t0, t1, rfl⟩ := between (by norm_num) h0 h1
  have e : pwrSeries ((1/40) + ((11/200) - (1/40)) * t)
      [(-154419/62500), (2931451/5000), (-6135071/100), 3711527, (-143126700), 3649414000, (-61535700000), 661785900000,
      (-4119861000000), 11313900000000] = bern
      (-38645283/8192000000) (-63697/13107200) (-8623271/1638400000) (-254842167/57344000000) (-59489489/11468800000)
      (-1019950691/286720000000) (-5301607341/1433600000000) (-2351286989/1024000000000) (-6948856243/5120000000000)
      (-24775473/5120000000000) t := by
    rw [series_ten, bern]
    ring
  rw [e]
  constructor
  · apply bern_ge t0 t1 <;> norm_num
  · apply bern_le t0 t1 <;> norm_num

theorem hQuad_2_T {x : ℝ} (h0 : (3/500) ≤ x) (h1 : x ≤ (7/200)) :
    (-9923/10000) ≤ pwrSeries x
      [(-40037/40000), (2585151/5000000), (9311761/100000), (1591517/100), (-1302247), 66478080, (-2215417000),
      46033900000, (-542087300000), 2764042000000] ∧
    pwrSeries x
      [(-40037/40000), (2585151/5000000), (9311761/100000), (1591517/100), (-1302247), 66478080, (-2215417000),
      46033900000, (-542087300000), 2764042000000] ≤ (-3813/5000) := by
  obtain ⟨t, t0, t1, rfl⟩ := between (by norm_num) h0 h1
  have e : pwrSeries ((3/500) + ((7/200) - (3/500)) * t)
      [(-40037/40000), (2585151/5000000), (9311761/100000), (1591517/100), (-1302247), 66478080, (-2215417000),
      46033900000, (-542087300000), 2764042000000] = bern
      (-484519065075668491/488281250000000000) (-1153143534219468409/1171875000000000000)
      (-1365373088930798483/1406250000000000000) (-312633032210434477/328125000000000000)
      (-732736965980288923/787500000000000000) (-189726612982048553/210000000000000000)
      (-36662840617335731/42000000000000000) (-6039544198924921/7200000000000000) (-2309494798682509/2880000000000000)
      (-195232621054983/256000000000000) t := by
    rw [series_ten, bern]
    ring
  rw [e]
  constructor
  · apply bern_ge t0 t1 <;> norm_num
  · apply bern_le t0 t1 <;> norm_num

theorem hQuad_2_S {x : ℝ} (h0 : (3/500) ≤ x) (h1 : x ≤ (7/200)) :
    (-7/2000) ≤ pwrSeries x
      [(3119419/10000000000), (-1135217/2500000), (1358257/25000), (-3785973/500), (1358513/2), (-37283900), 1299263000,
      (-27937050000), 337709700000, (-1755126000000)] ∧
    pwrSeries x
      [(3119419/10000000000), (-1135217/2500000), (1358257/25000), (-3785973/500), (1358513/2), (-37283900), 1299263000,
      (-27937050000), 337709700000, (-1755126000000)] ≤ (3/5000) := by
  obtain ⟨t, t0, t1, rfl⟩ := between (by norm_num) h0 h1
  have e : pwrSeries ((3/500) + ((7/200) - (3/500)) * t)
      [(3119419/10000000000), (-1135217/2500000), (1358257/25000), (-3785973/500), (1358513/2), (-37283900), 1299263000,
      (-27937050000), 337709700000, (-1755126000000)] = bern
      (-176817013539013/122070312500000000) (-7611608713598089/3515625000000000000)
      (-7753817041345097/2812500000000000000) (-2873377194431069/875000000000000000)
      (-5286363894399677/1575000000000000000) (-537193804956737/157500000000000000)
      (-488391784405043/168000000000000000) (-20742155054551/9600000000000000) (-80883852063/80000000000000)
      (129127702629/256000000000000) t := by
    rw [series_ten, bern]
    ring
  rw [e]
  constructor
  · apply bern_ge t0 t1 <;> norm_num
  · apply bern_le t0 t1 <;> norm_num

theorem hQuad_3_T {x : ℝ} (h0 : (337431/20000000) ≤ x) (h1 : x ≤ (112477/2500000)) :
    (-2331/2500) ≤ pwrSeries x
      [(-9999997/10000000), (-131203/1250000000), (122271/500), (-1288731/1000000), (-96063/4), (-986447/500), 1494708,
      (579629/2), (-87825060), 356690700] ∧
    pwrSeries x
      [(-9999997/10000000), (-131203/1250000000), (122271/500), (-1288731/1000000), (-96063/4), (-986447/500), 1494708,
      (579629/2), (-87825060), 356690700] ≤ (-237/400) := by
  obtain ⟨t, t0, t1, rfl⟩ := between (by norm_num) h0 h1
  have e : pwrSeries ((337431/20000000) + ((112477/2500000) - (337431/20000000)) * t)
      [(-9999997/10000000), (-131203/1250000000), (122271/500), (-1288731/1000000), (-96063/4), (-986447/500), 1494708,
      (579629/2), (-87825060), 356690700] = bern
      (-4773445136972986230204860397923497440147870851740887520229241203/5120000000000000000000000000000000000000000000000000000000000000)
      (-5229748820021844690540107121512088785360322354503576579710223609/5760000000000000000000000000000000000000000000000000000000000000)
      (-632927448375972079040032101289458405343738306885346280306741203/720000000000000000000000000000000000000000000000000000000000000)
      (-177676356284275963811144632517019823912035781191355385563854269/210000000000000000000000000000000000000000000000000000000000000)
      (-9106457655358217856090398062080338195712774669466966292693467/11250000000000000000000000000000000000000000000000000000000000)
      (-841943969824376948721285046087078826639435618431420498939047/1093750000000000000000000000000000000000000000000000000000000)
      (-298440166366099283921638626684566607864189141453487178939047/410156250000000000000000000000000000000000000000000000000000)
      (-15021235316984656535941357144600671705293821533365953062721/21972656250000000000000000000000000000000000000000000000000)
      (-584492827917034425864592487404861222682467897168952006969/915527343750000000000000000000000000000000000000000000000)
      (-22605506782270090257855551726507954028234970137097167441/38146972656250000000000000000000000000000000000000000000)
      t := by
    rw [series_ten, bern]
    ring
  rw [e]
  constructor
  · apply bern_ge t0 t1 <;> norm_num
  · apply bern_le t0 t1 <;> norm_num

theorem hQuad_3_S {x : ℝ} (h0 : (337431/20000000) ≤ x) (h1 : x ≤ (112477/2500000)) :
    (13/10000) ≤ pwrSeries x
      [(-1585139/2000000000000), (2884963/10000000000), (-2333633/50000000), (368867/1250), (-2712131/10000),
      (-4260259/100), (-1599841/5), 11033760, (-73044740), 147903600] ∧
    pwrSeries x
      [(-1585139/2000000000000), (2884963/10000000000), (-2333633/50000000), (368867/1250), (-2712131/10000),
      (-4260259/100), (-1599841/5), 11033760, (-73044740), 147903600] ≤ (91/5000) := by
  obtain ⟨t, t0, t1, rfl⟩ := between (by norm_num) h0 h1
  have e : pwrSeries ((337431/20000000) + ((112477/2500000) - (337431/20000000)) * t)
      [(-1585139/2000000000000), (2884963/10000000000), (-2333633/50000000), (368867/1250), (-2712131/10000),
      (-4260259/100), (-1599841/5), 11033760, (-73044740), 147903600] = bern
      (1694983086475877976433348537728154570196324171844738466103689/1280000000000000000000000000000000000000000000000000000000000000)
      (2928943455172781276156355312406359177675738314907219547686067/1440000000000000000000000000000000000000000000000000000000000000)
      (542360059797190611911894417307095858193091210786116232353689/180000000000000000000000000000000000000000000000000000000000000)
      (225827827662704366088441113852524310653181376874216478705647/52500000000000000000000000000000000000000000000000000000000000)
      (38852139251765371827475585493033397399218128188609555193549/6562500000000000000000000000000000000000000000000000000000000)
      (6454540255337942267059761677291885762111717129298983606183/820312500000000000000000000000000000000000000000000000000000)
      (345928347031195407599077658463630006292305238761457275687/34179687500000000000000000000000000000000000000000000000000)
      (69390111217518983534075977525050910094974484209868921723/5493164062500000000000000000000000000000000000000000000000)
      (3511208232231231523778733098793151118998465528234810747/228881835937500000000000000000000000000000000000000000000)
      (173338995578430314179883809254158585958800790720465083/9536743164062500000000000000000000000000000000000000000) t := by
    rw [series_ten, bern]
    ring
  rw [e]
  constructor
  · apply bern_ge t0 t1 <;> norm_num
  · apply bern_le t0 t1 <;> norm_num

theorem hQuad_4_T {x : ℝ} (h0 : (112477/10000000) ≤ x) (h1 : x ≤ (112477/5000000)) :
    (-907/1000) ≤ pwrSeries x
      [(-1), (4357777/100000000000), (7605879/10000), (2285787/1000000), (-401883/2), (2149581/100), 27738560, 48867820,
      (-4127019000), 22992780000] ∧
    pwrSeries x
      [(-1), (4357777/100000000000), (7605879/10000), (2285787/1000000), (-401883/2), (2149581/100), 27738560, 48867820,
      (-4127019000), 22992780000] ≤ (-6629/10000) := by
  obtain ⟨t, t0, t1, rfl⟩ := between (by norm_num) h0 h1
  have e : pwrSeries ((112477/10000000) + ((112477/5000000) - (112477/10000000)) * t)
      [(-1), (4357777/100000000000), (7605879/10000), (2285787/1000000), (-401883/2), (2149581/100), 27738560, 48867820,
      (-4127019000), 22992780000] = bern
      (-45346480688951795292719652886351023277850124199064512674357/50000000000000000000000000000000000000000000000000000000000)
      (-199560479010293689855535452208961357598803383202703779319213/225000000000000000000000000000000000000000000000000000000000)
      (-97287731028810245026235885136426189731468559915558194569213/112500000000000000000000000000000000000000000000000000000000)
      (-110329034775061392105895231475904454969727345170335672911497/131250000000000000000000000000000000000000000000000000000000)
      (-53455553963853382856841336881993429568526426908408475161497/65625000000000000000000000000000000000000000000000000000000)
      (-25817877204530386561323638117983612895104885017187527411497/32812500000000000000000000000000000000000000000000000000000)
      (-4143122451813912475361075589797674228091656498890943220499/5468750000000000000000000000000000000000000000000000000000)
      (-2556091907255008533206910467040861648734363005799020819213/3515625000000000000000000000000000000000000000000000000000)
      (-1222445066704561852082221671719701487412257529040936069213/1757812500000000000000000000000000000000000000000000000000)
      (-64737859042972315240494784663850396115534817112677924357/97656250000000000000000000000000000000000000000000000000)
      t := by
    rw [series_ten, bern]
    ring
  rw [e]
  constructor
  · apply bern_ge t0 t1 <;> norm_num
  · apply bern_le t0 t1 <;> norm_num

theorem hQuad_4_S {x : ℝ} (h0 : (112477/10000000) ≤ x) (h1 : x ≤ (112477/5000000)) :
    (11/5000) ≤ pwrSeries x
      [(-185413/1250000000000), (9278457/100000000000), (-2592071/100000000), (211284/125), (-4545599/10000),
      (-6192487/10), (-1632321), 166485600, (-1124066000), (-312129900)] ∧
    pwrSeries x
      [(-185413/1250000000000), (9278457/100000000000), (-2592071/100000000), (211284/125), (-4545599/10000),
      (-6192487/10), (-1632321), 166485600, (-1124066000), (-312129900)] ≤ (79/5000) := by
  obtain ⟨t, t0, t1, rfl⟩ := between (by norm_num) h0 h1
  have e : pwrSeries ((112477/10000000) + ((112477/5000000) - (112477/10000000)) * t)
      [(-185413/1250000000000), (9278457/100000000000), (-2592071/100000000), (211284/125), (-4545599/10000),
      (-6192487/10), (-1632321), 166485600, (-1124066000), (-312129900)] = bern
      (22842428823943294841568908878358212097242870355649577562937/10000000000000000000000000000000000000000000000000000000000000)
      (15103405064983839405639256311261226964528588372719277562937/5000000000000000000000000000000000000000000000000000000000000)
      (88332554847699342101401312175973452986577566058100798066433/22500000000000000000000000000000000000000000000000000000000000)
      (43885533194969675810267003938891374414423328298010742940559/8750000000000000000000000000000000000000000000000000000000000)
      (82702051914875503214955954810881214326795160602495928821677/13125000000000000000000000000000000000000000000000000000000000)
      (7302994245933971399263020910180501545907284822994232688811/937500000000000000000000000000000000000000000000000000000000)
      (4445613568150771249614238394595229121409328124203332688811/468750000000000000000000000000000000000000000000000000000000)
      (8002029788121305644550468724443703238328235326237298066433/703125000000000000000000000000000000000000000000000000000000)
      (4736322635256496518522910411944916401991669829864598066433/351562500000000000000000000000000000000000000000000000000000)
      (307543738347213323425364714747228270520816709276877562937/19531250000000000000000000000000000000000000000000000000000)
      t := by
    rw [series_ten, bern]
    ring
  rw [e]
  constructor
  · apply bern_ge t0 t1 <;> norm_num
  · apply bern_le t0 t1 <;> norm_num

theorem gap_41_T {x : ℝ} (h0 : (1/40) ≤ x) (h1 : x ≤ (2/25)) :
    (-4779/5000) ≤ pwrSeries x
      [(577/625), (-616/5), 3570, (-54760), 431600, (-1377000), 0, 0, 0, 0] ∧
    pwrSeries x
      [(577/625), (-616/5), 3570, (-54760), 431600, (-1377000), 0, 0, 0, 0] ≤ (-313/500) := by
  obtain ⟨t, t0, t1, rfl⟩ := between (by norm_num) h0 h1
  have e : pwrSeries ((1/40) + ((2/25) - (1/40)) * t)
      [(577/625), (-616/5), 3570, (-54760), 431600, (-1377000), 0, 0, 0, 0] = bern
      (-1602633/2560000) (-1472891/1920000) (-12832297/15360000) (-46823129/53760000) (-7216457761/8064000000)
      (-1152982961/1260000000) (-391212847/420000000) (-84755179/90000000) (-665623/703125) (-74667/78125) t := by
    rw [series_ten, bern]
    ring
  rw [e]
  constructor
  · apply bern_ge t0 t1 <;> norm_num
  · apply bern_le t0 t1 <;> norm_num

end Flame.Cavity.FitBounds
