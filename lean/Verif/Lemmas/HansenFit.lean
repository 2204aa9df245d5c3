import Verif.Lemmas.HansenTail

/-! Hansen's coefficients for 12-hour orbits near cubic polynomials of the eccentricity. The polynomials are those of the program; the differences of the
first terms of the series and the polynomials are checked by computation with whole numbers. -/

namespace SatSky.Hansen

open SatSky.Spec

theorem near_g201_1 {e : ℝ} (h1 : 1/2 ≤ e) (h2 : e ≤ 77/100) :
    |hansen 2 2 1 e - (-2440 / 10 ^ 5 + -44000 / 10 ^ 5 * e + 0 / 10 ^ 5 * e ^ 2 + 0 / 10 ^ 5 * e ^ 3)| ≤ 200 / 10 ^ 5 := by
  have h := hansen_near (l := 2) (k := 2) (ρ := 7/25) (t1 := 455) (t2 := 1) (δ := 10) (e := e) 6227020800 202800000 20 6
    (by decide +kernel : fits 2 4 0 1 0 1 12 6227020800 (-2440) (-44000) 0 0 190 202800000 20 6 274 207 1023 = true)
    (by norm_num) (by decide +kernel) (by decide +kernel) (by decide +kernel) (by norm_num) (by norm_num) (by norm_num) (by norm_num) (by norm_num) (by norm_num) (by norm_num) (by norm_num)
    (by norm_num) (by norm_num) (by norm_num) (by norm_num) (by norm_num) (le_trans (by norm_num) h1) (h2.trans (by norm_num))
  push_cast at h
  refine h.trans (le_of_eq ?_)
  norm_num

theorem near_g211_1 {e : ℝ} (h1 : 1/2 ≤ e) (h2 : e ≤ 13/20) :
    |hansen 2 0 1 e - (361600 / 10 ^ 5 + -1324700 / 10 ^ 5 * e + 1629000 / 10 ^ 5 * e ^ 2 + 0 / 10 ^ 5 * e ^ 3)| ≤ 2000 / 10 ^ 5 := by
  have h := hansen_near (l := 2) (k := 0) (ρ := 9/50) (t1 := 9) (t2 := 8) (δ := 100) (e := e) 40320 8960000 20 6
    (by decide +kernel : fits 2 2 2 1 1 0 7 40320 361600 (-1324700) 1629000 0 1900 8960000 20 6 319 121 1191 = true)
    (by norm_num) (by decide +kernel) (by decide +kernel) (by decide +kernel) (by norm_num) (by norm_num) (by norm_num) (by norm_num) (by norm_num) (by norm_num) (by norm_num) (by norm_num)
    (by norm_num) (by norm_num) (by norm_num) (by norm_num) (by norm_num) (le_trans (by norm_num) h1) (h2.trans (by norm_num))
  push_cast at h
  refine h.trans (le_of_eq ?_)
  norm_num

theorem near_g211_2 {e : ℝ} (h1 : 13/20 ≤ e) (h2 : e ≤ 77/100) :
    |hansen 2 0 1 e - (-7209900 / 10 ^ 5 + 33181900 / 10 ^ 5 * e + -50873800 / 10 ^ 5 * e ^ 2 + 26672400 / 10 ^ 5 * e ^ 3)| ≤ 1500 / 10 ^ 5 := by
  have h := hansen_near (l := 2) (k := 0) (ρ := 27/100) (t1 := 12) (t2 := 11) (δ := 75) (e := e) 39916800 121000000 20 6
    (by decide +kernel : fits 2 2 2 1 1 0 10 39916800 (-7209900) 33181900 (-50873800) 26672400 1425 121000000 20 6 414 113 1121 = true)
    (by norm_num) (by decide +kernel) (by decide +kernel) (by decide +kernel) (by norm_num) (by norm_num) (by norm_num) (by norm_num) (by norm_num) (by norm_num) (by norm_num) (by norm_num)
    (by norm_num) (by norm_num) (by norm_num) (by norm_num) (by norm_num) (le_trans (by norm_num) h1) (h2.trans (by norm_num))
  push_cast at h
  refine h.trans (le_of_eq ?_)
  norm_num

theorem near_g310_1 {e : ℝ} (h1 : 1/2 ≤ e) (h2 : e ≤ 13/20) :
    |hansen 3 1 1 e - (-1930200 / 10 ^ 5 + 11739000 / 10 ^ 5 * e + -22841900 / 10 ^ 5 * e ^ 2 + 15659100 / 10 ^ 5 * e ^ 3)| ≤ 1100 / 10 ^ 5 := by
  have h := hansen_near (l := 3) (k := 1) (ρ := 19/100) (t1 := 286) (t2 := 11) (δ := 55) (e := e) 3628800 400000 20 6
    (by decide +kernel : fits 3 4 2 1 0 0 10 3628800 (-1930200) 11739000 (-22841900) 15659100 1045 400000 20 6 319 121 1191 = true)
    (by norm_num) (by decide +kernel) (by decide +kernel) (by decide +kernel) (by norm_num) (by norm_num) (by norm_num) (by norm_num) (by norm_num) (by norm_num) (by norm_num) (by norm_num)
    (by norm_num) (by norm_num) (by norm_num) (by norm_num) (by norm_num) (le_trans (by norm_num) h1) (h2.trans (by norm_num))
  push_cast at h
  refine h.trans (le_of_eq ?_)
  norm_num

theorem near_g310_2 {e : ℝ} (h1 : 13/20 ≤ e) (h2 : e ≤ 77/100) :
    |hansen 3 1 1 e - (-34684400 / 10 ^ 5 + 158285100 / 10 ^ 5 * e + -241592500 / 10 ^ 5 * e ^ 2 + 124611300 / 10 ^ 5 * e ^ 3)| ≤ 1800 / 10 ^ 5 := by
  have h := hansen_near (l := 3) (k := 1) (ρ := 29/100) (t1 := 560) (t2 := 14) (δ := 90) (e := e) 6227020800 16900000 20 6
    (by decide +kernel : fits 3 4 2 1 0 0 13 6227020800 (-34684400) 158285100 (-241592500) 124611300 1710 16900000 20 6 414 113 1121 = true)
    (by norm_num) (by decide +kernel) (by decide +kernel) (by decide +kernel) (by norm_num) (by norm_num) (by norm_num) (by norm_num) (by norm_num) (by norm_num) (by norm_num) (by norm_num)
    (by norm_num) (by norm_num) (by norm_num) (by norm_num) (by norm_num) (le_trans (by norm_num) h1) (h2.trans (by norm_num))
  push_cast at h
  refine h.trans (le_of_eq ?_)
  norm_num

theorem near_g322_1 {e : ℝ} (h1 : 1/2 ≤ e) (h2 : e ≤ 13/20) :
    |hansen 3 (-1) 1 e - (-1890680 / 10 ^ 5 + 10979270 / 10 ^ 5 * e + -21463340 / 10 ^ 5 * e ^ 2 + 14658160 / 10 ^ 5 * e ^ 3)| ≤ 600 / 10 ^ 5 := by
  have h := hansen_near (l := 3) (k := (-1)) (ρ := 1/5) (t1 := 12) (t2 := 220) (δ := 30) (e := e) 39916800 217800000 20 6
    (by decide +kernel : fits 3 2 4 1 2 0 9 39916800 (-1890680) 10979270 (-21463340) 14658160 570 217800000 20 6 319 121 1191 = true)
    (by norm_num) (by decide +kernel) (by decide +kernel) (by decide +kernel) (by norm_num) (by norm_num) (by norm_num) (by norm_num) (by norm_num) (by norm_num) (by norm_num) (by norm_num)
    (by norm_num) (by norm_num) (by norm_num) (by norm_num) (by norm_num) (le_trans (by norm_num) h1) (h2.trans (by norm_num))
  push_cast at h
  refine h.trans (le_of_eq ?_)
  norm_num

theorem near_g322_2 {e : ℝ} (h1 : 13/20 ≤ e) (h2 : e ≤ 77/100) :
    |hansen 3 (-1) 1 e - (-34258500 / 10 ^ 5 + 155490800 / 10 ^ 5 * e + -236689900 / 10 ^ 5 * e ^ 2 + 121597200 / 10 ^ 5 * e ^ 3)| ≤ 1800 / 10 ^ 5 := by
  have h := hansen_near (l := 3) (k := (-1)) (ρ := 3/10) (t1 := 15) (t2 := 455) (δ := 90) (e := e) 87178291200 3057600000 20 6
    (by decide +kernel : fits 3 2 4 1 2 0 12 87178291200 (-34258500) 155490800 (-236689900) 121597200 1710 3057600000 20 6 414 113 1121 = true)
    (by norm_num) (by decide +kernel) (by decide +kernel) (by decide +kernel) (by norm_num) (by norm_num) (by norm_num) (by norm_num) (by norm_num) (by norm_num) (by norm_num) (by norm_num)
    (by norm_num) (by norm_num) (by norm_num) (by norm_num) (by norm_num) (le_trans (by norm_num) h1) (h2.trans (by norm_num))
  push_cast at h
  refine h.trans (le_of_eq ?_)
  norm_num

theorem near_g410_1 {e : ℝ} (h1 : 1/2 ≤ e) (h2 : e ≤ 13/20) :
    |hansen 4 2 2 e - (-4112200 / 10 ^ 5 + 24269400 / 10 ^ 5 * e + -47109400 / 10 ^ 5 * e ^ 2 + 31395300 / 10 ^ 5 * e ^ 3)| ≤ 1500 / 10 ^ 5 := by
  have h := hansen_near (l := 4) (k := 2) (ρ := 21/100) (t1 := 6188) (t2 := 13) (δ := 75) (e := e) 479001600 29491200000 20 6
    (by decide +kernel : fits 4 6 2 2 0 0 12 479001600 (-4112200) 24269400 (-47109400) 31395300 1425 29491200000 20 6 319 121 1191 = true)
    (by norm_num) (by decide +kernel) (by decide +kernel) (by decide +kernel) (by norm_num) (by norm_num) (by norm_num) (by norm_num) (by norm_num) (by norm_num) (by norm_num) (by norm_num)
    (by norm_num) (by norm_num) (by norm_num) (by norm_num) (by norm_num) (le_trans (by norm_num) h1) (h2.trans (by norm_num))
  push_cast at h
  refine h.trans (le_of_eq ?_)
  norm_num

theorem near_g410_2 {e : ℝ} (h1 : 13/20 ≤ e) (h2 : e ≤ 77/100) :
    |hansen 4 2 2 e - (-105279700 / 10 ^ 5 + 475868600 / 10 ^ 5 * e + -719399200 / 10 ^ 5 * e ^ 2 + 365195700 / 10 ^ 5 * e ^ 3)| ≤ 8000 / 10 ^ 5 := by
  have h := hansen_near (l := 4) (k := 2) (ρ := 31/100) (t1 := 20349) (t2 := 17) (δ := 400) (e := e) 20922789888000 13421772800000 20 6
    (by decide +kernel : fits 4 6 2 2 0 0 16 20922789888000 (-105279700) 475868600 (-719399200) 365195700 7600 13421772800000 20 6 414 113 1121 = true)
    (by norm_num) (by decide +kernel) (by decide +kernel) (by decide +kernel) (by norm_num) (by norm_num) (by norm_num) (by norm_num) (by norm_num) (by norm_num) (by norm_num) (by norm_num)
    (by norm_num) (by norm_num) (by norm_num) (by norm_num) (by norm_num) (le_trans (by norm_num) h1) (h2.trans (by norm_num))
  push_cast at h
  refine h.trans (le_of_eq ?_)
  norm_num

theorem near_g422_1 {e : ℝ} (h1 : 1/2 ≤ e) (h2 : e ≤ 13/20) :
    |hansen 4 0 2 e - (-14640700 / 10 ^ 5 + 84188000 / 10 ^ 5 * e + -162901400 / 10 ^ 5 * e ^ 2 + 108343500 / 10 ^ 5 * e ^ 3)| ≤ 5000 / 10 ^ 5 := by
  have h := hansen_near (l := 4) (k := 0) (ρ := 21/100) (t1 := 560) (t2 := 364) (δ := 250) (e := e) 6227020800 36549427200000 20 6
    (by decide +kernel : fits 4 4 4 2 2 0 11 6227020800 (-14640700) 84188000 (-162901400) 108343500 4750 36549427200000 20 6 319 121 1191 = true)
    (by norm_num) (by decide +kernel) (by decide +kernel) (by decide +kernel) (by norm_num) (by norm_num) (by norm_num) (by norm_num) (by norm_num) (by norm_num) (by norm_num) (by norm_num)
    (by norm_num) (by norm_num) (by norm_num) (by norm_num) (by norm_num) (le_trans (by norm_num) h1) (h2.trans (by norm_num))
  push_cast at h
  refine h.trans (le_of_eq ?_)
  norm_num

theorem near_g422_2 {e : ℝ} (h1 : 13/20 ≤ e) (h2 : e ≤ 77/100) :
    |hansen 4 0 2 e - (-358169000 / 10 ^ 5 + 1617811000 / 10 ^ 5 * e + -2446277000 / 10 ^ 5 * e ^ 2 + 1242252000 / 10 ^ 5 * e ^ 3)| ≤ 25000 / 10 ^ 5 := by
  have h := hansen_near (l := 4) (k := 0) (ρ := 31/100) (t1 := 1140) (t2 := 816) (δ := 1250) (e := e) 355687428096000 29091692544000000 20 6
    (by decide +kernel : fits 4 4 4 2 2 0 15 355687428096000 (-358169000) 1617811000 (-2446277000) 1242252000 23750 29091692544000000 20 6 414 113 1121 = true)
    (by norm_num) (by decide +kernel) (by decide +kernel) (by decide +kernel) (by norm_num) (by norm_num) (by norm_num) (by norm_num) (by norm_num) (by norm_num) (by norm_num) (by norm_num)
    (by norm_num) (by norm_num) (by norm_num) (by norm_num) (by norm_num) (le_trans (by norm_num) h1) (h2.trans (by norm_num))
  push_cast at h
  refine h.trans (le_of_eq ?_)
  norm_num

theorem near_g520_1 {e : ℝ} (h1 : 1/2 ≤ e) (h2 : e ≤ 13/20) :
    |hansen 5 1 1 e - (-53211400 / 10 ^ 5 + 301797700 / 10 ^ 5 * e + -574003200 / 10 ^ 5 * e ^ 2 + 370827600 / 10 ^ 5 * e ^ 3)| ≤ 23000 / 10 ^ 5 := by
  have h := hansen_near (l := 5) (k := 1) (ρ := 1/4) (t1 := 4368) (t2 := 364) (δ := 1150) (e := e) 39916800 12100000 20 6
    (by decide +kernel : fits 5 6 4 1 0 0 11 39916800 (-53211400) 301797700 (-574003200) 370827600 21850 12100000 20 6 319 121 1191 = true)
    (by norm_num) (by decide +kernel) (by decide +kernel) (by decide +kernel) (by norm_num) (by norm_num) (by norm_num) (by norm_num) (by norm_num) (by norm_num) (by norm_num) (by norm_num)
    (by norm_num) (by norm_num) (by norm_num) (by norm_num) (by norm_num) (le_trans (by norm_num) h1) (h2.trans (by norm_num))
  push_cast at h
  refine h.trans (le_of_eq ?_)
  norm_num

theorem near_g520_2 {e : ℝ} (h1 : 13/20 ≤ e) (h2 : e ≤ 143/200) :
    |hansen 5 1 1 e - (146474000 / 10 ^ 5 + -466475000 / 10 ^ 5 * e + 376364000 / 10 ^ 5 * e ^ 2 + 0 / 10 ^ 5 * e ^ 3)| ≤ 35000 / 10 ^ 5 := by
  have h := hansen_near (l := 5) (k := 1) (ρ := 29/100) (t1 := 11628) (t2 := 680) (δ := 1750) (e := e) 87178291200 19600000 20 6
    (by decide +kernel : fits 5 6 4 1 0 0 14 87178291200 146474000 (-466475000) 376364000 0 33250 19600000 20 6 394 55 1067 = true)
    (by norm_num) (by decide +kernel) (by decide +kernel) (by decide +kernel) (by norm_num) (by norm_num) (by norm_num) (by norm_num) (by norm_num) (by norm_num) (by norm_num) (by norm_num)
    (by norm_num) (by norm_num) (by norm_num) (by norm_num) (by norm_num) (le_trans (by norm_num) h1) (h2.trans (by norm_num))
  push_cast at h
  refine h.trans (le_of_eq ?_)
  norm_num

theorem near_g520_3 {e : ℝ} (h1 : 143/200 ≤ e) (h2 : e ≤ 77/100) :
    |hansen 5 1 1 e - (-514966000 / 10 ^ 5 + 2993692000 / 10 ^ 5 * e + -5408736000 / 10 ^ 5 * e ^ 2 + 3132456000 / 10 ^ 5 * e ^ 3)| ≤ 90000 / 10 ^ 5 := by
  have h := hansen_near (l := 5) (k := 1) (ρ := 17/50) (t1 := 20349) (t2 := 969) (δ := 4500) (e := e) 20922789888000 25600000 20 6
    (by decide +kernel : fits 5 6 4 1 0 0 16 20922789888000 (-514966000) 2993692000 (-5408736000) 3132456000 85500 25600000 20 6 486 57 1155 = true)
    (by norm_num) (by decide +kernel) (by decide +kernel) (by decide +kernel) (by norm_num) (by norm_num) (by norm_num) (by norm_num) (by norm_num) (by norm_num) (by norm_num) (by norm_num)
    (by norm_num) (by norm_num) (by norm_num) (by norm_num) (by norm_num) (le_trans (by norm_num) h1) (h2.trans (by norm_num))
  push_cast at h
  refine h.trans (le_of_eq ?_)
  norm_num

theorem near_g533_1 {e : ℝ} (h1 : 1/2 ≤ e) (h2 : e ≤ 7/10) :
    |hansen 5 (-1) 2 e - (-91922770 / 10 ^ 5 + 498861000 / 10 ^ 5 * e + -906477000 / 10 ^ 5 * e ^ 2 + 554221000 / 10 ^ 5 * e ^ 3)| ≤ 90000 / 10 ^ 5 := by
  have h := hansen_near (l := 5) (k := (-1)) (ρ := 7/25) (t1 := 816) (t2 := 6188) (δ := 4500) (e := e) 1307674368000 1610219520000000 20 6
    (by decide +kernel : fits 5 4 6 2 3 0 12 1307674368000 (-91922770) 498861000 (-906477000) 554221000 85500 1610219520000000 20 6 288 151 1075 = true)
    (by norm_num) (by decide +kernel) (by decide +kernel) (by decide +kernel) (by norm_num) (by norm_num) (by norm_num) (by norm_num) (by norm_num) (by norm_num) (by norm_num) (by norm_num)
    (by norm_num) (by norm_num) (by norm_num) (by norm_num) (by norm_num) (le_trans (by norm_num) h1) (h2.trans (by norm_num))
  push_cast at h
  refine h.trans (le_of_eq ?_)
  norm_num

theorem near_g533_2 {e : ℝ} (h1 : 7/10 ≤ e) (h2 : e ≤ 77/100) :
    |hansen 5 (-1) 2 e - (-3799578000 / 10 ^ 5 + 16161652000 / 10 ^ 5 * e + -22983820000 / 10 ^ 5 * e ^ 2 + 10937794000 / 10 ^ 5 * e ^ 3)| ≤ 100000 / 10 ^ 5 := by
  have h := hansen_near (l := 5) (k := (-1)) (ρ := 33/100) (t1 := 1540) (t2 := 20349) (δ := 5000) (e := e) 121645100408832000 5930598216499200000 20 6
    (by decide +kernel : fits 5 4 6 2 3 0 16 121645100408832000 (-3799578000) 16161652000 (-22983820000) 10937794000 95000 5930598216499200000 20 6 430 65 1053 = true)
    (by norm_num) (by decide +kernel) (by decide +kernel) (by decide +kernel) (by norm_num) (by norm_num) (by norm_num) (by norm_num) (by norm_num) (by norm_num) (by norm_num) (by norm_num)
    (by norm_num) (by norm_num) (by norm_num) (by norm_num) (by norm_num) (le_trans (by norm_num) h1) (h2.trans (by norm_num))
  push_cast at h
  refine h.trans (le_of_eq ?_)
  norm_num

theorem near_g521_1 {e : ℝ} (h1 : 1/2 ≤ e) (h2 : e ≤ 7/10) :
    |hansen 5 1 2 e - (-82271072 / 10 ^ 5 + 456861730 / 10 ^ 5 * e + -849141460 / 10 ^ 5 * e ^ 2 + 533752400 / 10 ^ 5 * e ^ 3)| ≤ 150000 / 10 ^ 5 := by
  have h := hansen_near (l := 5) (k := 1) (ρ := 7/25) (t1 := 11628) (t2 := 560) (δ := 7500) (e := e) 87178291200 6679429120000 20 6
    (by decide +kernel : fits 5 6 4 2 1 0 13 87178291200 (-82271072) 456861730 (-849141460) 533752400 142500 6679429120000 20 6 288 151 1075 = true)
    (by norm_num) (by decide +kernel) (by decide +kernel) (by decide +kernel) (by norm_num) (by norm_num) (by norm_num) (by norm_num) (by norm_num) (by norm_num) (by norm_num) (by norm_num)
    (by norm_num) (by norm_num) (by norm_num) (by norm_num) (by norm_num) (le_trans (by norm_num) h1) (h2.trans (by norm_num))
  push_cast at h
  refine h.trans (le_of_eq ?_)
  norm_num

theorem near_g521_2 {e : ℝ} (h1 : 7/10 ≤ e) (h2 : e ≤ 77/100) :
    |hansen 5 1 2 e - (-5175210400 / 10 ^ 5 + 21891395000 / 10 ^ 5 * e + -30946816000 / 10 ^ 5 * e ^ 2 + 14634942000 / 10 ^ 5 * e ^ 3)| ≤ 70000 / 10 ^ 5 := by
  have h := hansen_near (l := 5) (k := 1) (ρ := 8/25) (t1 := 42504) (t2 := 1330) (δ := 3500) (e := e) 121645100408832000 174429359308800000 20 6
    (by decide +kernel : fits 5 6 4 2 1 0 18 121645100408832000 (-5175210400) 21891395000 (-30946816000) 14634942000 66500 174429359308800000 20 6 430 65 1053 = true)
    (by norm_num) (by decide +kernel) (by decide +kernel) (by decide +kernel) (by norm_num) (by norm_num) (by norm_num) (by norm_num) (by norm_num) (by norm_num) (by norm_num) (by norm_num)
    (by norm_num) (by norm_num) (by norm_num) (by norm_num) (by norm_num) (le_trans (by norm_num) h1) (h2.trans (by norm_num))
  push_cast at h
  refine h.trans (le_of_eq ?_)
  norm_num

theorem near_g532_1 {e : ℝ} (h1 : 1/2 ≤ e) (h2 : e ≤ 7/10) :
    |hansen 5 (-1) 1 e - (-85366600 / 10 ^ 5 + 469025000 / 10 ^ 5 * e + -862477000 / 10 ^ 5 * e ^ 2 + 534140000 / 10 ^ 5 * e ^ 3)| ≤ 70000 / 10 ^ 5 := by
  have h := hansen_near (l := 5) (k := (-1)) (ρ := 29/100) (t1 := 560) (t2 := 4368) (δ := 3500) (e := e) 6227020800 2230800000 20 6
    (by decide +kernel : fits 5 4 6 1 2 0 11 6227020800 (-85366600) 469025000 (-862477000) 534140000 66500 2230800000 20 6 288 151 1075 = true)
    (by norm_num) (by decide +kernel) (by decide +kernel) (by decide +kernel) (by norm_num) (by norm_num) (by norm_num) (by norm_num) (by norm_num) (by norm_num) (by norm_num) (by norm_num)
    (by norm_num) (by norm_num) (by norm_num) (by norm_num) (by norm_num) (le_trans (by norm_num) h1) (h2.trans (by norm_num))
  push_cast at h
  refine h.trans (le_of_eq ?_)
  norm_num

theorem near_g532_2 {e : ℝ} (h1 : 7/10 ≤ e) (h2 : e ≤ 77/100) :
    |hansen 5 (-1) 1 e - (-4002388000 / 10 ^ 5 + 17047089000 / 10 ^ 5 * e + -24269948000 / 10 ^ 5 * e ^ 2 + 11560582000 / 10 ^ 5 * e ^ 3)| ≤ 45000 / 10 ^ 5 := by
  have h := hansen_near (l := 5) (k := (-1)) (ρ := 17/50) (t1 := 1140) (t2 := 15504) (δ := 2250) (e := e) 355687428096000 6936000000 20 6
    (by decide +kernel : fits 5 4 6 1 2 0 15 355687428096000 (-4002388000) 17047089000 (-24269948000) 11560582000 42750 6936000000 20 6 430 65 1053 = true)
    (by norm_num) (by decide +kernel) (by decide +kernel) (by decide +kernel) (by norm_num) (by norm_num) (by norm_num) (by norm_num) (by norm_num) (by norm_num) (by norm_num) (by norm_num)
    (by norm_num) (by norm_num) (by norm_num) (by norm_num) (by norm_num) (le_trans (by norm_num) h1) (h2.trans (by norm_num))
  push_cast at h
  refine h.trans (le_of_eq ?_)
  norm_num

end SatSky.Hansen
