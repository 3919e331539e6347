import Mathlib.Analysis.SpecialFunctions.Log.Basic
import Mathlib.Analysis.SpecialFunctions.Exp
import Mathlib.Analysis.Complex.Trigonometric
import Mathlib.Data.Fin.VecNotation

/-!
# Model: the stroke problem

Radau5-NG/test/AvcF.hpp and Rodas-NG/test/AvcF.hpp.  The two files have the same text except for a
comment, `Hessenberg` and the constants and `DF_t` for Rodas (lines 55-64, 575-579 of the second); line
numbers refer to the first.

Real numbers.  A division by zero or a logarithm of a number which is not positive gives `none`: in C++ it
gives an infinity or a NaN (divisions by the constants `F`, `T0v`, ... and by `1+exp(..)` in `smooth2` and
`S` are not checked).  The formulas of the neuron (names with `n`) and of the astrocyte (names
with `a`) which differ only in the names are one definition here.
-/

namespace Odes.Avc

open Real

/-- `a / b`. -/
noncomputable def dv (a b : ℝ) : Option ℝ := if b = 0 then none else some (a / b)

/-- `log(a)`. -/
noncomputable def lg (a : ℝ) : Option ℝ := if 0 < a then some (log a) else none

/-- the constants set by the constructor (lines 10-20) which `operator()` uses. -/
structure Par where
  (F RT v nPropVol0 aPropVol0 nPK ngtransp agtransp arNaKCl nsurf asurf aPK nrNaK arNaK nrNaCa arNaCa
    ngClglob agClglob n1 n2 alpha_n agKDR ngKDR ngBK agBK agKir ngCaHVA agCaHVA npHVA apHVA ngNaP agNaP
    ngCapompe agCapompe ngClpompe agClpompe agglu ngglu ngCl agCl agstre ngstre ncap acap nnP0 anP0
    alpha_a T0v T0r Tfv Tfr v0 alpha alphaP v0P : ℝ)

/-- `RTF`, `FRT`, line 61. -/
noncomputable def Par.RTF (p : Par) : ℝ := p.RT / p.F
noncomputable def Par.FRT (p : Par) : ℝ := p.F / p.RT

/-- the constructor, lines 56-124; `k` is `65.0/35.0` if the macro `RAT` is defined and 10 otherwise
(lines 62-66).  `pow(va,0.1e1/0.3e1)` is the cube root up to the rounding of the exponent: `rn` and `ra`
are parameters. -/
noncomputable def shipped (k rn ra : ℝ) : Par :=
  let v : ℝ := 25000
  let vn : ℝ := 10000
  let va : ℝ := 9000
  let n1 := 0.8 * v / (vn + k * va)
  let n2 := k * n1
  let nPropVol0 := n1 * vn / v
  let aPropVol0 := n2 * va / v
  let nsurf := 4 * 3.141592654 * rn * rn
  let asurf := 4 * 3.141592654 * ra * ra
  { F := 96.48530929, RT := 8.314511935 * 310.15, v := v, nPropVol0 := nPropVol0, aPropVol0 := aPropVol0
    nPK := 0.0211976, ngtransp := 0.0380749, agtransp := 0.0488883, arNaKCl := 0.0157281
    nsurf := nsurf, asurf := asurf, aPK := 0.000970553, nrNaK := 13.6319, arNaK := 5.96188
    nrNaCa := 1.83901, arNaCa := 1.78407, ngClglob := 0.231534, agClglob := 0.719236
    n1 := n1, n2 := n2, alpha_n := 20, agKDR := 35665.4, ngKDR := 2292.35, ngBK := 3.36741
    agBK := 1.97892, agKir := 5.90892, ngCaHVA := 18.3418, agCaHVA := 165.08, npHVA := 1.5e-5
    apHVA := 1.5e-5, ngNaP := 2.053, agNaP := 0.0150655, ngCapompe := 5, agCapompe := 5
    ngClpompe := 2, agClpompe := 2, agglu := 0.0187386, ngglu := 0.0128369, ngCl := 6.23888
    agCl := 6.18428, agstre := 0.05, ngstre := 0.05, ncap := nsurf * 0.01, acap := asurf * 0.01
    nnP0 := v * nPropVol0 * (17.7391 + 130.659 + 2 * 0.0006 - 14 - 3)
    anP0 := v * aPropVol0 * (17.7391 + 130.658 + 2 * 0.0006 - 7 - 3)
    alpha_a := 20, T0v := 250, T0r := 500, Tfv := 20, Tfr := 20, v0 := 0.9, alpha := 15, alphaP := 6
    v0P := 0.05 }

/-- `init`, lines 126-182. -/
noncomputable def init (k : ℝ) : Fin 21 → ℝ :=
  let n1 := 0.8 * 25000 / (10000 + k * 9000)
  let n2 := k * n1
  ![130.659, 17.7391, 0.0006, 14, 3, 130.658, 17.7391, 0.0006, 7, 3, 5.4, 140, 2.0, 149.397, 0.001,
    -53.3, -73.3, n1 * 10000 / 25000, n2 * 9000 / 25000, 0, 0]

/-- `smooth2`, lines 26-29. -/
noncomputable def smooth2 (x : ℝ) : ℝ := 1 / (1 + exp (100 * x))

/-- `recup`, lines 30-36. -/
noncomputable def recup (p : Par) (x : Fin 21 → ℝ) : ℝ × ℝ :=
  ((1 - smooth2 ((x 10 - p.alpha) / 10)) * (1 - x 19) / p.T0v
      - smooth2 ((x 10 - p.alphaP) / 10) * x 19 / p.Tfv,
    (1 - smooth2 (x 19 - p.v0)) * (1 - x 20) / p.T0r - smooth2 (x 19 - p.v0P) * x 20 / p.Tfr)

/-- `S`, lines 37-40. -/
noncomputable def S (x : ℝ) : ℝ := 1 / (1 + exp (-20 * (x - 0.7)))

/-- `fdepol`, lines 41-47. -/
noncomputable def fdepol (t r : ℝ) : ℝ :=
  let z := 1.025 * (0.25 + (1 - 0.25) * exp (-(1 / 60) * t))
  z * (1 + 0.6 * r * S (z / 1.025))

/-! ### channels (`g`, `r`: conductances; `E`: equilibrium potentials; `V`: membrane potential) -/

/-- `nEK`, ..., lines 212-222. -/
noncomputable def nernst (p : Par) (ce ci : ℝ) : Option ℝ :=
  (dv ce ci).bind fun q => (lg q).map fun l => p.RTF * l

/-- `nIKDR`, `aIKDR`, lines 227-235. -/
noncomputable def iKDR (g V EK : ℝ) : Option ℝ :=
  (dv (0.0047 * (V - 8)) (1 - exp (-(V - 8) / 12))).bind fun a =>
  (dv a (a + exp (-(V + 127) / 30))).bind fun m =>
  (dv 1 (1 + exp ((V + 25) / 4))).map fun h => 1e-3 * g * (m * m) * h * (V - EK)

/-- `nIBK`, `aIBK`, lines 238-244. -/
noncomputable def iBK (g V EK Ca : ℝ) : Option ℝ :=
  (dv (250 * Ca * exp (V / 24)) (250 * Ca * exp (V / 24) + 0.1 * exp (-V / 24))).map fun m =>
    1e-3 * g * m * (V - EK)

/-- `aIKir`, lines 248-250. -/
noncomputable def iKir (p : Par) (V EK K : ℝ) : Option ℝ :=
  (dv 1 (2 + exp (1.62 * p.FRT * (V - EK)))).bind fun m =>
  (dv K (K + 13)).map fun q => 1e-3 * p.agKir * m * q * (V - EK)

/-- a steady state of a gate: `a/(a+b)`. -/
noncomputable def gate (A va ka B vb kb V : ℝ) : Option ℝ :=
  (dv A (1 + exp ((V + va) / ka))).bind fun a => (dv B (1 + exp ((V + vb) / kb))).bind fun b =>
    dv a (a + b)

/-- `nICaHVA`, `aICaHVA`, lines 254-265, 268-279 (`-(V-8)/12.5` is written `(V+(-8))/(-12.5)`). -/
noncomputable def iCaHVA (p : Par) (ph g V Ci Ce : ℝ) : Option ℝ :=
  (dv (Ci * exp (2 * (p.FRT * V)) - Ce) (exp (2 * (p.FRT * V)) - 1)).bind fun A1 =>
  (gate 8.5 (-8) (-12.5) 35 74 14.5 V).bind fun m =>
  (gate 0.0015 29 8 0.0055 23 (-8) V).map fun h => 10 * p.F * ph * g * 4 * (p.FRT * V) * m * h * A1

/-- `nINaP`, `aINaP`, lines 283-291. -/
noncomputable def iNaP (g V ENa : ℝ) : Option ℝ :=
  (gate 200 (-18) (-16) 25 58 8 V).map fun m => 1e-3 * g * m * (V - ENa)

/-- `nCK`, `nCNa`, `nCCa`, `aCK`, `aCNa` (valency `w`), lines 300-301, 305-306, 310-311, 321-322,
327-328. -/
noncomputable def ghk (p : Par) (w Ci Ce V : ℝ) : Option ℝ :=
  (dv Ci Ce).bind fun q => dv (q * exp (w * (p.FRT * V)) - 1) (exp (w * (p.FRT * V)) - 1)

/-- `nIKNMDA`, `nINaNMDA` (`f=1`), `nICaNMDA` (`f=4*6`), `aIKAMPA`, `aINaAMPA`, lines 302-303, 307-308,
312-313, 324-325, 329-330; `AB` is `nA2*nB2` or `aA2`. -/
noncomputable def receptor (p : Par) (f PK w Ci Ce V AB : ℝ) : Option ℝ :=
  (ghk p w Ci Ce V).bind fun C => (dv (f * PK * p.F * p.F) p.RT).map fun q => 1e-3 * (q * Ce) * AB * C * V

/-- `nA2 * nB2`, lines 295-298. -/
noncomputable def nmda (glu V : ℝ) : Option ℝ :=
  (dv (72 * glu) (72 * glu + 6.6)).bind fun A2 => (dv 1 (1 + 0.028 * exp (-0.062 * V))).map fun B2 =>
    A2 * B2

/-- `aA2`, lines 318-320. -/
noncomputable def ampa (glu : ℝ) : Option ℝ := dv (1100 * glu) (1100 * glu + 190)

/-- `A3*B3*C3` of the pump of sodium and potassium, lines 335-339, 345-349. -/
noncomputable def pump (p : Par) (K Na V : ℝ) : Option ℝ :=
  (dv K (K + 3.7)).bind fun a => (dv Na (Na + 0.6)).bind fun b =>
  (dv (0.052 * sinh (p.FRT * (V + 176.5)))
    (0.026 * exp (p.FRT * (V + 176.5)) + 22.5 * exp (-(p.FRT * (V + 176.5))))).map fun c =>
    a ^ 2 * b ^ 3 * c

/-- `nICapompe`, `aICapompe`, lines 356-357. -/
noncomputable def iCapompe (depol g Ca : ℝ) : Option ℝ :=
  dv (depol * g * 0.01 * Ca) (Ca + 0.0002)

/-- `nIClpompe`, `aIClpompe`, lines 361-362. -/
noncomputable def iClpompe (depol g Cl : ℝ) : Option ℝ :=
  dv (-0.01 * depol * g * Cl) (Cl + 25)

/-- `A4/B4` of the exchange of sodium and calcium, lines 367-372, 378-381. -/
noncomputable def antiport (p : Par) (Nai Nae Cai Cae V : ℝ) : Option ℝ :=
  (dv p.F (2 * p.RT)).bind fun aa =>
  dv (Nai ^ 3 * Cae * exp (aa * V) - Nae ^ 3 * Cai * exp (-aa * V))
    (1 + 0.0001 * (Nae ^ 3 * Cai + Nai ^ 3 * Cae))

/-- `nEtransp`, `aEtransp`, lines 390-394, 403-407. -/
noncomputable def eTransp (p : Par) (Nai Nae Ki Ke glui glue : ℝ) : Option ℝ :=
  (dv Nae Nai).bind fun a => (dv Ki Ke).bind fun b => (dv glue glui).bind fun c =>
  (lg (a ^ 3 * b * c)).map fun l => p.RTF * l

/-- `nIstre`, `aIstre`, lines 448-452. -/
noncomputable def iStre (g v0 v : ℝ) : Option ℝ := dv (-g * (v0 + 50 * (v - v0))) v0

/-- neuron, lines 209-472: the currents K, Na, Ca, Cl, glutamate. -/
noncomputable def neuron (p : Par) (t : ℝ) (x : Fin 21 → ℝ) : Option (ℝ × ℝ × ℝ × ℝ × ℝ) :=
  let depol := fdepol t (x 20)
  (nernst p (x 10) (x 0)).bind fun EK =>
  (nernst p (x 11) (x 1)).bind fun ENa =>
  (nernst p (x 14) (x 4)).bind fun Eglu' =>
  (nernst p (x 13) (x 3)).bind fun ECl' =>
  let Eglu := -Eglu'
  let ECl := -ECl'
  (iKDR p.ngKDR (x 15) EK).bind fun IKDR =>
  (iBK p.ngBK (x 15) EK (x 2)).bind fun IBK =>
  (iCaHVA p p.npHVA p.ngCaHVA (x 15) (x 2) (x 12)).bind fun ICaHVA =>
  (iNaP p.ngNaP (x 15) ENa).bind fun INaP =>
  (nmda (x 14) (x 15)).bind fun AB =>
  (receptor p 1 p.nPK 1 (x 0) (x 10) (x 15) AB).bind fun IKNMDA =>
  (receptor p 1 p.nPK 1 (x 1) (x 11) (x 15) AB).bind fun INaNMDA =>
  (receptor p (4 * 6) p.nPK 2 (x 2) (x 12) (x 15) AB).bind fun ICaNMDA =>
  (pump p (x 10) (x 1) (x 15)).bind fun pu =>
  let IKpompe := -0.01 * p.nrNaK * depol * pu
  let INapompe := 1.5 * 0.01 * p.nrNaK * depol * pu
  (iCapompe depol p.ngCapompe (x 2)).bind fun ICapompe =>
  (iClpompe depol p.ngClpompe (x 3)).bind fun IClpompe =>
  (antiport p (x 1) (x 11) (x 2) (x 12) (x 15)).bind fun an =>
  let ICaantiport := -0.01 * (p.nrNaCa / 20736) * an
  let INaantiport := 1.5 * 0.01 * (p.nrNaCa / 20736) * an
  (eTransp p (x 1) (x 11) (x 0) (x 10) (x 4) (x 14)).bind fun Etransp =>
  let INatransp := 3 * 0.001 * p.ngtransp * (x 15 - Etransp)
  let IKtransp := -0.001 * p.ngtransp * (x 15 - Etransp)
  let Iglutransp := -0.001 * p.ngtransp * (x 15 - Etransp)
  let Igludiff := 0.001 * p.ngglu * (x 15 - Eglu)
  let IClglob := -0.001 * p.ngClglob * (ECl - EK)
  let IKglob := 0.001 * p.ngClglob * (ECl - EK)
  let ICl := 0.001 * p.ngCl * (x 15 - ECl)
  (iStre p.ngstre p.nPropVol0 (x 17)).map fun Istre =>
  (IKDR + IBK + IKNMDA + IKpompe + IKtransp + IKglob,
    INaP + INaNMDA + INapompe + INaantiport + INatransp,
    ICaHVA + ICaNMDA + ICaantiport + ICapompe,
    ICl + IClglob + IClpompe + Istre,
    Iglutransp + Igludiff)

/-- astrocyte, lines 209-493. -/
noncomputable def astro (p : Par) (t : ℝ) (x : Fin 21 → ℝ) : Option (ℝ × ℝ × ℝ × ℝ × ℝ) :=
  let depol := fdepol t (x 20)
  (nernst p (x 10) (x 5)).bind fun EK =>
  (nernst p (x 11) (x 6)).bind fun ENa =>
  (nernst p (x 14) (x 9)).bind fun Eglu' =>
  (nernst p (x 13) (x 8)).bind fun ECl' =>
  let Eglu := -Eglu'
  let ECl := -ECl'
  (iKDR p.agKDR (x 16) EK).bind fun IKDR =>
  (iBK p.agBK (x 16) EK (x 7)).bind fun IBK =>
  (iKir p (x 16) EK (x 10)).bind fun IKir =>
  (iCaHVA p p.apHVA p.agCaHVA (x 16) (x 7) (x 12)).bind fun ICaHVA =>
  (iNaP p.agNaP (x 16) ENa).bind fun INaP =>
  (ampa (x 14)).bind fun A2 =>
  (receptor p 1 p.aPK 1 (x 5) (x 10) (x 16) A2).bind fun IKAMPA =>
  (receptor p 1 p.aPK 1 (x 6) (x 11) (x 16) A2).bind fun INaAMPA =>
  (pump p (x 10) (x 6) (x 16)).bind fun pu =>
  let IKpompe := -0.01 * p.arNaK * depol * pu
  let INapompe := 1.5 * 0.01 * p.arNaK * depol * pu
  (iCapompe depol p.agCapompe (x 7)).bind fun ICapompe =>
  (iClpompe depol p.agClpompe (x 8)).bind fun IClpompe =>
  (antiport p (x 6) (x 11) (x 7) (x 12) (x 16)).bind fun an =>
  let ICaantiport := -0.01 * (p.arNaCa / 20736) * an
  let INaantiport := 1.5 * 0.01 * (p.arNaCa / 20736) * an
  (eTransp p (x 6) (x 11) (x 5) (x 10) (x 9) (x 14)).bind fun Etransp =>
  let INatransp := 3 * 0.001 * p.agtransp * (x 16 - Etransp)
  let IKtransp := -0.001 * p.agtransp * (x 16 - Etransp)
  let Iglutransp := -0.001 * p.agtransp * (x 16 - Etransp)
  let Einv := -2 * ECl + EK + ENa
  let INacotransp := -0.001 * p.arNaKCl * Einv
  let IKcotransp := -0.001 * p.arNaKCl * Einv
  let IClcotransp := 2 * 0.001 * p.arNaKCl * Einv
  let Igludiff := 0.001 * p.agglu * (x 16 - Eglu)
  let IClglob := -0.001 * p.agClglob * (ECl - EK)
  let IKglob := 0.001 * p.agClglob * (ECl - EK)
  let ICl := 0.001 * p.agCl * (x 16 - ECl)
  (iStre p.agstre p.aPropVol0 (x 18)).map fun Istre =>
  (IKDR + IKir + IBK + IKAMPA + IKpompe + IKtransp + IKcotransp + IKglob,
    INaP + INaAMPA + INapompe + INaantiport + INatransp + INacotransp,
    ICaHVA + ICaantiport + ICapompe,
    ICl + IClglob + IClpompe + IClcotransp + Istre,
    Iglutransp + Igludiff)

/-- lines 503-558: the derivatives from the sums of currents. -/
noncomputable def assemble (p : Par) (x : Fin 21 → ℝ) (n a : ℝ × ℝ × ℝ × ℝ × ℝ) :
    Option (Fin 21 → ℝ) :=
  let (nK, nNa, nCa, nCl, nglu) := n
  let (aK, aNa, aCa, aCl, aglu) := a
  (dv (1000 * p.n1 * p.nsurf) (p.F * p.v)).bind fun sn =>
  (dv (1000 * p.n2 * p.asurf) (p.F * p.v)).bind fun sa =>
  (dv p.nsurf p.ncap).bind fun cn =>
  (dv p.asurf p.acap).bind fun ca =>
  (dv p.nnP0 (p.v * x 17)).bind fun pn =>
  (dv p.anP0 (p.v * x 18)).bind fun pa =>
  let Cn := x 0 + x 1 + x 2 + x 3 + x 4
  let Ca := x 5 + x 6 + x 7 + x 8 + x 9
  let Ce := x 10 + x 11 + x 12 + x 13 + x 14
  let z17 := p.alpha_n * (Cn + pn - Ce)
  let z18 := p.alpha_a * (Ca + pa - Ce)
  let zn : Fin 5 → ℝ := ![-sn * nK, -sn * nNa, -sn * nCa / 2, sn * nCl, sn * nglu]
  let za : Fin 5 → ℝ := ![-sa * aK, -sa * aNa, -sa * aCa / 2, sa * aCl, sa * aglu]
  let ze : Fin 5 → ℝ := ![sn * nK + sa * aK, sn * nNa + sa * aNa, sn * nCa / 2 + sa * aCa / 2,
    -sn * nCl - sa * aCl, -sn * nglu - sa * aglu]
  if x 17 = 0 ∨ x 18 = 0 ∨ 1 - x 18 - x 17 = 0 then none else
  let u (i : Fin 5) (b : Fin 21) : ℝ := (zn i - x b * z17) / x 17
  let w (i : Fin 5) (b : Fin 21) : ℝ := (za i - x b * z18) / x 18
  let o (i : Fin 5) (b : Fin 21) : ℝ := (ze i + x b * (z17 + z18)) / (1 - x 18 - x 17)
  some ![u 0 0, u 1 1, u 2 2, u 3 3, u 4 4, w 0 5, w 1 6, w 2 7, w 3 8, w 4 9,
    o 0 10, o 1 11, o 2 12, o 3 13, o 4 14,
    -1000 * cn * (nNa + nK + nCa + nCl + nglu), -1000 * ca * (aNa + aK + aCa + aCl + aglu),
    z17, z18, (recup p x).1, (recup p x).2]

/-- `operator()`, lines 186-559. -/
noncomputable def rhs (p : Par) (t : ℝ) (x : Fin 21 → ℝ) : Option (Fin 21 → ℝ) :=
  (neuron p t x).bind fun n => (astro p t x).bind fun a => assemble p x n a

/-- the flag for Rodas, Rodas-NG/test/AvcF.hpp 57. -/
def autonomous : Bool := true

end Odes.Avc
