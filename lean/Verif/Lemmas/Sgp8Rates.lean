import Verif.Model.Sgp8
import Mathlib.Analysis.SpecialFunctions.Pow.Deriv
import Mathlib.Analysis.SpecialFunctions.Trigonometric.Deriv
import Mathlib.Analysis.SpecialFunctions.Sqrt

/-! The derivatives of the quantities of `SGP8_init` along an orbit that decays by the rates they define. -/

namespace SatSky.Sgp8

open SatSky.Sxp

/-- At `t` the elements change by the rates of the program, and the axis as the mean motion demands. -/
structure Follows (k : Fixed) (S : ℝ → Orb) (t : ℝ) : Prop where
  n : HasDerivAt (fun t => (S t).n) (xndt k (S t)) t
  e : HasDerivAt (fun t => (S t).e) (edot k (S t)) t
  g : HasDerivAt (fun t => (S t).g) (xgdt1 k (S t)) t
  a : HasDerivAt (fun t => (S t).a) (-2 * d20 k (S t) * (S t).a) t

/-- An ellipse whose perigee is above the level where the density law ends. -/
structure Good (x : Orb) : Prop where
  a : 0 < x.a
  n : 0 < x.n
  beta : betao2 x ≠ 0
  ps : 0 < po x - sConst
  eta : eta2 x < 1

section
variable {k : Fixed} {S : ℝ → Orb} {t : ℝ}

theorem psim2_eq {x : Orb} (h : eta2 x < 1) : psim2 x = 1 / (1 - eta2 x) := by
  unfold psim2
  rw [abs_of_pos (by apply one_div_pos.2; linarith)]

theorem alpha_pos (x : Orb) : 0 < alpha2 x := by
  unfold alpha2 eosq; nlinarith [sq_nonneg x.e]

theorem sConst_pos : 0 < sConst := by unfold sConst earthRadius; norm_num

theorem Good.po {x : Orb} (h : Good x) : po x ≠ 0 := by
  have := h.ps; have := sConst_pos; intro h0; linarith

theorem D_eosq (h : Follows k S t) : HasDerivAt (fun t => eosq (S t)) (2 * (S t).e * edot k (S t)) t :=
  (h.e.mul h.e).congr_deriv (by ring)

theorem D_betao2 (h : Follows k S t) : HasDerivAt (fun t => betao2 (S t)) (-2 * (S t).e * edot k (S t)) t :=
  ((D_eosq h).const_sub 1).congr_deriv (by ring)

theorem D_po (h : Follows k S t) :
    HasDerivAt (fun t => po (S t)) (-2 * (S t).a * (d20 k (S t) * betao2 (S t) + (S t).e * edot k (S t))) t :=
  (h.a.mul (D_betao2 h)).congr_deriv (by ring)

theorem D_tsi (h : Follows k S t) (hg : Good (S t)) : HasDerivAt (fun t => tsi (S t)) (tsi (S t) * tsdtts k (S t)) t := by
  have hp : po (S t) - sConst ≠ 0 := hg.ps.ne'
  refine ((((D_po h).sub_const sConst).inv hp).congr_deriv (g' := tsi (S t) * tsdtts k (S t)) ?_).congr_of_eventuallyEq (.of_forall fun t => by
    simp only [tsi, one_div, Pi.inv_apply])
  unfold tsdtts tsi
  field_simp

theorem D_eta (h : Follows k S t) (hg : Good (S t)) : HasDerivAt (fun t => eta (S t)) (etdt k (S t)) t :=
  ((h.e.mul_const sConst).mul (D_tsi h hg)).congr_deriv (by unfold etdt; ring)

theorem D_eta2 (h : Follows k S t) (hg : Good (S t)) : HasDerivAt (fun t => eta2 (S t)) (2 * eta (S t) * etdt k (S t)) t :=
  ((D_eta h hg).mul (D_eta h hg)).congr_deriv (by ring)

theorem D_psim2 (h : Follows k S t) (hg : Good (S t)) : HasDerivAt (fun t => psim2 (S t)) (psim2 (S t) * (-2 * psdtps k (S t))) t := by
  have h1 : (1 : ℝ) - eta2 (S t) ≠ 0 := by have := hg.eta; intro h0; linarith
  have he : ∀ᶠ s in nhds t, eta2 (S s) < 1 := (D_eta2 h hg).continuousAt.eventually (gt_mem_nhds hg.eta)
  have hd := ((D_eta2 h hg).const_sub 1).inv h1
  refine (hd.congr_deriv (g' := psim2 (S t) * (-2 * psdtps k (S t))) ?_).congr_of_eventuallyEq ?_
  · unfold psdtps
    rw [psim2_eq hg.eta]
    field_simp
  · filter_upwards [he] with s hs
    rw [psim2_eq hs]
    simp only [one_div, Pi.inv_apply]

theorem D_alpha2 (h : Follows k S t) : HasDerivAt (fun t => alpha2 (S t)) (alpha2 (S t) * (2 * aldtal k (S t))) t :=
  ((D_eosq h).add_const 1).congr_deriv (by have := (alpha_pos (S t)).ne'; unfold aldtal; field_simp)

theorem D_eeta (h : Follows k S t) (hg : Good (S t)) :
    HasDerivAt (fun t => eeta (S t)) (edot k (S t) * eta (S t) + (S t).e * etdt k (S t)) t := h.e.mul (D_eta h hg)

theorem D_sin (h : Follows k S t) : HasDerivAt (fun t => Real.sin (S t).g) (Real.cos (S t).g * xgdt1 k (S t)) t := h.g.sin

theorem D_cos (h : Follows k S t) : HasDerivAt (fun t => Real.cos (S t).g) (-Real.sin (S t).g * xgdt1 k (S t)) t := h.g.cos

theorem D_cos2g (h : Follows k S t) : HasDerivAt (fun t => cos2g (S t)) (-2 * sin2g (S t) * xgdt1 k (S t)) t :=
  ((((D_cos h).mul (D_cos h)).mul_const 2).sub_const 1).congr_deriv (by unfold sin2g; ring)

theorem D_sin2g (h : Follows k S t) : HasDerivAt (fun t => sin2g (S t)) (2 * cos2g (S t) * xgdt1 k (S t)) t :=
  (((D_sin h).mul_const 2).mul (D_cos h)).congr_deriv (by unfold cos2g; have := Real.sin_sq_add_cos_sq (S t).g; linear_combination (-2 * xgdt1 k (S t)) * this)

theorem D_d5 (h : Follows k S t) (hg : Good (S t)) : HasDerivAt (fun t => d5 (S t)) (d5dt k (S t)) t :=
  ((D_tsi h hg).mul (D_psim2 h hg)).congr_deriv (by unfold d5dt d5 d14; ring)

theorem D_d1 (h : Follows k S t) (hg : Good (S t)) : HasDerivAt (fun t => d1 (S t)) (d1dt k (S t)) t := by
  refine ((D_d5 h hg).div (D_po h) hg.po).congr_deriv ?_
  have hp : po (S t) = (S t).a * betao2 (S t) := rfl
  have ha := hg.a.ne'
  have hb := hg.beta
  unfold d1dt d1 d5dt d15
  rw [hp]
  field_simp
  ring

theorem D_d2 (h : Follows k S t) (hg : Good (S t)) : HasDerivAt (fun t => d2 (S t)) (d2dt k (S t)) t :=
  (((D_eta2 h hg).mul (((D_eta2 h hg).mul_const (9 / 2)).add_const 36)).add_const 12).congr_deriv (by unfold d2dt d11 eta2; ring)

theorem D_d3 (h : Follows k S t) (hg : Good (S t)) : HasDerivAt (fun t => d3 (S t)) (d3dt k (S t)) t :=
  ((D_eta2 h hg).mul (((D_eta2 h hg).mul_const (5 / 2)).add_const 15)).congr_deriv (by unfold d3dt d12 eta2; ring)

theorem D_d4 (h : Follows k S t) (hg : Good (S t)) : HasDerivAt (fun t => d4 (S t)) (d4dt k (S t)) t :=
  ((D_eta h hg).mul (((D_eta2 h hg).mul_const (15 / 4)).add_const 5)).congr_deriv (by unfold d4dt d13 eta2; ring)

theorem D_d6 (h : Follows k S t) (hg : Good (S t)) : HasDerivAt (fun t => d6 (S t)) (etdt k (S t) * (eta2 (S t) * (135 / 2) + 30)) t :=
  ((D_eta h hg).mul (((D_eta2 h hg).mul_const (45 / 2)).add_const 30)).congr_deriv (by unfold eta2; ring)

theorem D_d7 (h : Follows k S t) (hg : Good (S t)) : HasDerivAt (fun t => d7 (S t)) (etdt k (S t) * (eta2 (S t) * (75 / 2) + 5)) t :=
  ((D_eta h hg).mul (((D_eta2 h hg).mul_const (25 / 2)).add_const 5)).congr_deriv (by unfold eta2; ring)

theorem D_d8 (h : Follows k S t) (hg : Good (S t)) :
    HasDerivAt (fun t => d8 (S t)) (etdt k (S t) * eta (S t) * (eta2 (S t) * 4 + 27 / 2)) t :=
  (((D_eta2 h hg).mul ((D_eta2 h hg).add_const (27 / 4))).add_const 1).congr_deriv (by unfold eta2; ring)

theorem D_c4 (h : Follows k S t) (hg : Good (S t)) : HasDerivAt (fun t => c4 k (S t)) (c4dt k (S t)) t :=
  (((D_d1 h hg).mul (D_d3 h hg)).mul_const (b2 k)).congr_deriv (by unfold c4dt; ring)

theorem D_c5 (h : Follows k S t) (hg : Good (S t)) : HasDerivAt (fun t => c5 k (S t)) (c5dt k (S t)) t :=
  (((D_d5 h hg).mul (D_d4 h hg)).mul_const (b3 k)).congr_deriv (by unfold c5dt; ring)

theorem xndt_d20 {x : Orb} (hn : x.n ≠ 0) : xndt k x = 3 * d20 k x * x.n := by
  unfold d20 xndtn; field_simp

theorem D_c0 (h : Follows k S t) (hg : Good (S t)) : HasDerivAt (fun t => c0 k (S t)) (c0 k (S t) * c0dtc0 k (S t)) t := by
  have hpp : 0 < psim2 (S t) := by rw [psim2_eq hg.eta]; apply one_div_pos.2; linarith [hg.eta]
  have hs : Real.sqrt (alpha2 (S t)) ≠ 0 := (Real.sqrt_pos.2 (alpha_pos _)).ne'
  have h1 := (D_psim2 h hg).rpow_const (p := 7 / 2) (Or.inl hpp.ne')
  have h2 := (D_alpha2 h).sqrt (alpha_pos _).ne'
  have h3 := ((D_tsi h hg).mul (D_tsi h hg)).mul ((D_tsi h hg).mul (D_tsi h hg))
  have h4 := (((((h.n.const_mul (bOf k * (1 / 2) * rho * qoms2t)).mul h.a).mul h3).mul h1).div h2 hs)
  refine h4.congr_deriv ?_
  have hn := hg.n.ne'
  have hq : psim2 (S t) ^ (7 / 2 - 1 : ℝ) = psim2 (S t) ^ (7 / 2 : ℝ) / psim2 (S t) := by rw [Real.rpow_sub hpp, Real.rpow_one]
  have hsq : Real.sqrt (alpha2 (S t)) ^ 2 = alpha2 (S t) := Real.sq_sqrt (alpha_pos _).le
  simp only [Pi.mul_apply]
  rw [hq, xndt_d20 hn]
  unfold c0 c0dtc0
  have hp0 := hpp.ne'
  rw [← hsq]
  have : Real.sqrt (Real.sqrt (alpha2 (S t)) ^ 2) = Real.sqrt (alpha2 (S t)) := by rw [hsq]
  rw [this]
  generalize Real.sqrt (alpha2 (S t)) = A at *
  generalize psim2 (S t) ^ (7 / 2 : ℝ) = P at *
  generalize psim2 (S t) = Q at *
  field_simp
  ring

theorem D_c1 (h : Follows k S t) (hg : Good (S t)) : HasDerivAt (fun t => c1 k (S t)) (c1 k (S t) * c1dtc1 k (S t)) t := by
  refine ((((h.n.mul_const (3 / 2)).mul ((D_alpha2 h).mul (D_alpha2 h))).mul (D_c0 h hg))).congr_deriv ?_
  have hn := hg.n.ne'
  simp only [Pi.mul_apply]
  unfold c1 c1dtc1 xndtn
  field_simp
  ring

theorem D_xndt (h : Follows k S t) (hg : Good (S t)) : HasDerivAt (fun t => xndt k (S t)) (xnddt k (S t)) t := by
  have q1 := (D_eta2 h hg).mul (((D_eosq h).mul_const 34).add_const 3)
  have q2 := ((D_eeta h hg).mul_const 5).mul ((D_eta2 h hg).add_const 4)
  have q3 := (D_eosq h).mul_const (17 / 2)
  have q4 := ((D_d1 h hg).mul (D_d2 h hg)).mul_const (b1 k)
  have q5 := (D_c4 h hg).mul (D_cos2g h)
  have q6 := (D_c5 h hg).mul (D_sin h)
  refine ((D_c1 h hg).mul ((((((q1.add_const 2).add q2).add q3).add q4).add q5).add q6)).congr_deriv ?_
  simp only [Pi.mul_apply, Pi.add_apply]
  unfold xnddt xndt d16 d9 d10 eeta eosq eta2
  ring

theorem D_edot (h : Follows k S t) (hg : Good (S t)) : HasDerivAt (fun t => edot k (S t)) (eddot k (S t)) t := by
  have q1 := (D_eta h hg).mul (((D_eta2 h hg).add_const 4).add ((D_eosq h).mul (((D_eta2 h hg).mul_const 7).add_const (31 / 2))))
  have q2 := h.e.mul (((D_eta2 h hg).mul_const 15).add_const 5)
  have q3 := ((D_d1 h hg).mul (D_d6 h hg)).mul_const (b1 k)
  have q4 := (((D_d1 h hg).mul (D_d7 h hg)).mul_const (b2 k)).mul (D_cos2g h)
  have q5 := (((D_d5 h hg).mul (D_d8 h hg)).mul_const (b3 k)).mul (D_sin h)
  refine ((D_c0 h hg).neg.mul ((((q1.add q2).add q3).add q4).add q5)).congr_deriv ?_
  simp only [Pi.mul_apply, Pi.add_apply, Pi.neg_apply]
  unfold eddot c8 c9 eeta
  generalize hE : edot k (S t) = E
  unfold edot c8 c9 at hE
  rw [← hE]
  unfold eosq eta2
  ring

theorem D_xndtn (h : Follows k S t) (hg : Good (S t)) : HasDerivAt (fun t => xndtn k (S t)) (d17 k (S t)) t := by
  have hn := hg.n.ne'
  refine ((D_xndt h hg).div h.n hn).congr_deriv ?_
  unfold d17 xndtn
  field_simp

theorem D_d20 (h : Follows k S t) (hg : Good (S t)) : HasDerivAt (fun t => d20 k (S t)) (1 / 3 * d17 k (S t)) t :=
  ((D_xndtn h hg).const_mul (2 / 3 * (1 / 2))).congr_deriv (by ring)

theorem D_tsdtts (h : Follows k S t) (hg : Good (S t)) : HasDerivAt (fun t => tsdtts k (S t)) (d18 k (S t)) t := by
  have q := ((D_d20 h hg).mul (D_betao2 h)).add (h.e.mul (D_edot h hg))
  refine (((h.a.mul_const 2).mul (D_tsi h hg)).mul q).congr_deriv ?_
  simp only [Pi.mul_apply, Pi.add_apply]
  unfold d18 tsddts d25
  generalize hE : tsdtts k (S t) = E
  unfold tsdtts at hE
  rw [← hE]
  ring

theorem D_etdt (h : Follows k S t) (hg : Good (S t)) : HasDerivAt (fun t => etdt k (S t)) (etddt k (S t)) t := by
  refine ((((D_edot h hg).add (h.e.mul (D_tsdtts h hg))).mul (D_tsi h hg)).mul_const sConst).congr_deriv ?_
  simp only [Pi.mul_apply, Pi.add_apply]
  unfold etddt d18 eta
  ring

theorem D_psdtps (h : Follows k S t) (hg : Good (S t)) (h0 : eta (S t) ≠ 0) : HasDerivAt (fun t => psdtps k (S t)) (d19 k (S t)) t := by
  refine (((D_eta h hg).neg.mul (D_etdt h hg)).mul (D_psim2 h hg)).congr_deriv ?_
  simp only [Pi.mul_apply, Pi.neg_apply]
  unfold d19
  have h1 : 1 - eta (S t) * eta (S t) ≠ 0 := by have := hg.eta; unfold eta2 at this; intro h0; linarith
  unfold psdtps
  rw [psim2_eq hg.eta]
  unfold eta2
  field_simp
  ring

theorem D_aldtal (h : Follows k S t) (hg : Good (S t)) :
    HasDerivAt (fun t => aldtal k (S t)) ((d25 k (S t) + (S t).e * eddot k (S t)) / alpha2 (S t) - 2 * (aldtal k (S t) * aldtal k (S t))) t := by
  have h1 := (alpha_pos (S t)).ne'
  refine ((h.e.mul (D_edot h hg)).div (D_alpha2 h) h1).congr_deriv ?_
  simp only [Pi.mul_apply]
  unfold aldtal d25
  field_simp

theorem D_d14 (h : Follows k S t) (hg : Good (S t)) (h0 : eta (S t) ≠ 0) :
    HasDerivAt (fun t => d14 k (S t)) (d18 k (S t) - d19 k (S t) * 2) t :=
  (D_tsdtts h hg).sub ((D_psdtps h hg h0).mul_const 2)

theorem D_d15 (h : Follows k S t) (hg : Good (S t)) : HasDerivAt (fun t => d15 k (S t))
    (2 / 3 * d17 k (S t) + (alpha2 (S t) * d25 k (S t) / betao2 (S t) + (S t).e * eddot k (S t)) * 2 / betao2 (S t)) t := by
  have hb := hg.beta
  refine (((D_d20 h hg).add ((h.e.mul (D_edot h hg)).div (D_betao2 h) hb)).mul_const 2).congr_deriv ?_
  simp only [Pi.mul_apply]
  unfold d25
  have e1 : alpha2 (S t) = 2 * (S t).e * (S t).e + betao2 (S t) := by unfold alpha2 betao2 eosq; ring
  rw [e1]
  field_simp
  ring

theorem D_d1dt (h : Follows k S t) (hg : Good (S t)) (h0 : eta (S t) ≠ 0) : HasDerivAt (fun t => d1dt k (S t)) (d1ddt k (S t)) t := by
  refine ((D_d1 h hg).mul ((D_d14 h hg h0).add (D_d15 h hg))).congr_deriv ?_
  simp only [Pi.add_apply]
  unfold d1ddt
  ring

theorem D_xgdt1 (h : Follows k S t) (hg : Good (S t)) : HasDerivAt (fun t => xgdt1 k (S t))
    (xgdt1 k (S t) * (d20 k (S t) * 7 + (S t).e * 4 * edot k (S t) / betao2 (S t))) t := by
  have hp := hg.po
  have q := (((D_po h).mul (D_po h)).inv (mul_ne_zero hp hp)).const_mul (3 * ck2)
  refine ((((q.mul h.n).const_mul (-(1 / 2))).mul_const k.unm5th).congr_deriv
    (g' := xgdt1 k (S t) * (d20 k (S t) * 7 + (S t).e * 4 * edot k (S t) / betao2 (S t))) ?_).congr_of_eventuallyEq (.of_forall fun t => by
      simp only [xgdt1, one_div, Pi.inv_apply, Pi.mul_apply])
  have hn := hg.n.ne'
  have ha := hg.a.ne'
  have hb := hg.beta
  simp only [Pi.mul_apply, Pi.inv_apply]
  rw [xndt_d20 hn]
  have hpo : po (S t) = (S t).a * betao2 (S t) := rfl
  unfold xgdt1
  rw [hpo]
  field_simp
  ring

theorem D_c0dtc0 (h : Follows k S t) (hg : Good (S t)) (h0 : eta (S t) ≠ 0) : HasDerivAt (fun t => c0dtc0 k (S t))
    (1 / 3 * d17 k (S t) + d18 k (S t) * 4
      - ((d25 k (S t) + (S t).e * eddot k (S t)) / alpha2 (S t) - 2 * (aldtal k (S t) * aldtal k (S t))) - d19 k (S t) * 7) t :=
  (((D_d20 h hg).add ((D_tsdtts h hg).mul_const 4)).sub (D_aldtal h hg)).sub ((D_psdtps h hg h0).mul_const 7)

theorem D_xnddt (h : Follows k S t) (hg : Good (S t)) (h0 : eta (S t) ≠ 0) : HasDerivAt (fun t => xnddt k (S t)) (xntrdt k (S t)) t := by
  have hc := ((D_xndtn h hg).add ((D_aldtal h hg).mul_const 4)).add (D_c0dtc0 h hg h0)
  have hd9 : HasDerivAt (fun t => d9 (S t)) (etdt k (S t) * (eosq (S t) * 68 + 6) + eta (S t) * (2 * (S t).e * edot k (S t) * 68)
      + (edot k (S t) * (eta2 (S t) * 15 + 20) + (S t).e * (2 * eta (S t) * etdt k (S t) * 15))) t :=
    ((D_eta h hg).mul (((D_eosq h).mul_const 68).add_const 6)).add (h.e.mul (((D_eta2 h hg).mul_const 15).add_const 20))
  have hd10 : HasDerivAt (fun t => d10 (S t)) (etdt k (S t) * 5 * (eta2 (S t) + 4) + eta (S t) * 5 * (2 * eta (S t) * etdt k (S t))
      + (edot k (S t) * (eta2 (S t) * 68 + 17) + (S t).e * (2 * eta (S t) * etdt k (S t) * 68))) t :=
    (((D_eta h hg).mul_const 5).mul ((D_eta2 h hg).add_const 4)).add (h.e.mul (((D_eta2 h hg).mul_const 68).add_const 17))
  have hd11 : HasDerivAt (fun t => d11 (S t)) (etdt k (S t) * (eta2 (S t) * 54 + 72)) t :=
    ((D_eta h hg).mul (((D_eta2 h hg).mul_const 18).add_const 72)).congr_deriv (by unfold eta2; ring)
  have hd12 : HasDerivAt (fun t => d12 (S t)) (etdt k (S t) * (eta2 (S t) * 30 + 30)) t :=
    ((D_eta h hg).mul (((D_eta2 h hg).mul_const 10).add_const 30)).congr_deriv (by unfold eta2; ring)
  have hd13 : HasDerivAt (fun t => d13 (S t)) (eta (S t) * (45 / 2) * etdt k (S t)) t :=
    (((D_eta2 h hg).mul_const (45 / 4)).add_const 5).congr_deriv (by ring)
  have hd2 : HasDerivAt (fun t => d2dt k (S t)) (etddt k (S t) * d11 (S t) + d23 k (S t) * (eta2 (S t) * 54 + 72)) t :=
    ((D_etdt h hg).mul hd11).congr_deriv (by unfold d23; ring)
  have hd3 : HasDerivAt (fun t => d3dt k (S t)) (etddt k (S t) * d12 (S t) + d23 k (S t) * (eta2 (S t) * 30 + 30)) t :=
    ((D_etdt h hg).mul hd12).congr_deriv (by unfold d23; ring)
  have hd4 : HasDerivAt (fun t => d4dt k (S t)) (etddt k (S t) * d13 (S t) + eta (S t) * (45 / 2) * d23 k (S t)) t :=
    ((D_etdt h hg).mul hd13).congr_deriv (by unfold d23; ring)
  have hd5 : HasDerivAt (fun t => d5dt k (S t)) (d5dt k (S t) * d14 k (S t) + d5 (S t) * (d18 k (S t) - d19 k (S t) * 2)) t :=
    (D_d5 h hg).mul (D_d14 h hg h0)
  have hc4 : HasDerivAt (fun t => c4dt k (S t)) (b2 k * (d1ddt k (S t) * d3 (S t) + d1dt k (S t) * 2 * d3dt k (S t)
      + d1 (S t) * (etddt k (S t) * d12 (S t) + d23 k (S t) * (eta2 (S t) * 30 + 30)))) t :=
    ((((D_d1dt h hg h0).mul (D_d3 h hg)).add ((D_d1 h hg).mul hd3)).const_mul (b2 k)).congr_deriv (by ring)
  have hc5 : HasDerivAt (fun t => c5dt k (S t)) (b3 k * ((d5dt k (S t) * d14 k (S t) + d5 (S t) * (d18 k (S t) - d19 k (S t) * 2)) * d4 (S t)
      + d4dt k (S t) * 2 * d5dt k (S t) + d5 (S t) * (etddt k (S t) * d13 (S t) + eta (S t) * (45 / 2) * d23 k (S t)))) t :=
    (((hd5.mul (D_d4 h hg)).add ((D_d5 h hg).mul hd4)).const_mul (b3 k)).congr_deriv (by ring)
  have q1 := hd9.mul (D_etdt h hg)
  have q2 := hd10.mul (D_edot h hg)
  have q3 := (((D_d1dt h hg h0).mul (D_d2 h hg)).add ((D_d1 h hg).mul hd2)).const_mul (b1 k)
  have q4 := hc4.mul (D_cos2g h)
  have q5 := hc5.mul (D_sin h)
  have q6 := (D_xgdt1 h hg).mul (((D_c5 h hg).mul (D_cos h)).sub (((D_c4 h hg).mul_const 2).mul (D_sin2g h)))
  have q := ((((q1.add q2).add q3).add q4).add q5).add q6
  have := (hc.mul (D_xndt h hg)).add ((D_c1 h hg).mul q)
  refine this.congr_deriv ?_
  simp only [Pi.mul_apply, Pi.add_apply, Pi.sub_apply]
  have hx := (alpha_pos (S t)).ne'
  have e16 : d9 (S t) * etdt k (S t) + d10 (S t) * edot k (S t) + b1 k * (d1dt k (S t) * d2 (S t) + d1 (S t) * d2dt k (S t))
      + c4dt k (S t) * cos2g (S t) + c5dt k (S t) * Real.sin (S t).g
      + xgdt1 k (S t) * (c5 k (S t) * Real.cos (S t).g - c4 k (S t) * 2 * sin2g (S t)) = d16 k (S t) := rfl
  have ec : xndtn k (S t) + aldtal k (S t) * 4 + c0dtc0 k (S t) = c1dtc1 k (S t) := rfl
  rw [e16, ec]
  unfold xntrdt eeta d25 eosq eta2 d23
  generalize d16 k (S t) = D16
  generalize c1dtc1 k (S t) = C1
  ring

end

end SatSky.Sgp8
