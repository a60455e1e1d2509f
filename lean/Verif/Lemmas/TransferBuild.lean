import Verif.Lemmas.Transfer

/-! # Transfer of the table builders -/

set_option linter.unusedSectionVars false
set_option linter.unusedSimpArgs false

namespace Resdx.Transfer

open Tabular Table Util

variable {K : Type} [Field K] [LinearOrder K] [IsStrictOrderedRing K] {L : Type} [Field L] [LinearOrder L] [IsStrictOrderedRing L]
variable {φ : K →+* L} (hφ : StrictMono φ)

set_option hygiene false in
local macro "L!" n:term:max : term => `(lit (φ := φ) (x := $n) (y := $n) $n (by norm_num) (by norm_num))

theorem step {β γ : Type} {m : PyM (Table K) Unit} {m' : PyM (Table L) Unit} (h : Sim (tT φ) id m m') {s : Table K} {k : Table K → Py β} {k' : Table L → Py γ} {g : β → γ}
    (hk : ∀ t, k' (tT φ t) = (k t).map g) : (m'.exec (tT φ s) >>= k') = (m.exec s >>= k).map g := by
  rw [h.exec s]; exact bind_map hk

theorem set' {x v : K} {x' v' : L} (hx : φ x = x') (hv : φ v = v') (s : Int) : Sim (tT φ) id (Table.set s x v) (Table.set s x' v') := by
  subst hx hv; exact set_sim s x v
theorem ratio' {x v : K} {x' v' : L} (hx : φ x = x') (hv : φ v = v') (s : Int) : Sim (tT φ) id (setByRatio s x v) (setByRatio s x' v') := by
  subst hx hv; exact setByRatio_sim s x v
theorem maint' {x r v : K} {x' r' v' : L} (hx : φ x = x') (hr : φ r = r') (hv : φ v = v') (k : Kind) (s : Int) :
    Sim (tT φ) id (setByMaintenance k s x r v) (setByMaintenance k s x' r' v') := by
  subst hx hr hv; exact setByMaintenance_sim k s x r v
theorem interp' {x : K} {x' : L} (hx : φ x = x') (s : Int) : Sim (tT φ) id (setByInterpolation s x) (setByInterpolation s x') := by
  subst hx; exact setByInterpolation_sim s x
include hφ in
theorem add' {x : K} {x' : L} (hx : φ x = x') {e : Bool} {l : Option K} {l' : Option L} (hl : l.map φ = l') : Sim (tT φ) id (addTemperature x e l) (addTemperature x' e l') := by
  subst hx hl; exact addTemperature_sim hφ x e l

include hφ in
theorem add0 {x : K} {x' : L} (hx : φ x = x') {e : Bool} : Sim (tT φ) id (addTemperature x e none) (addTemperature x' e none) := add' hφ hx rfl

theorem over' {t : Table K} {s : Int} {x v : K} {x' v' : L} (hx : φ x = x') (hv : φ v = v') : getOver (tT φ t) s x' v' = (getOver t s x v).map φ := by
  subst hx hv
  unfold getOver
  rw [get_map]
  refine bind_map fun a => ?_
  rw [pyNum_map]
  exact bind_map fun b => pdiv_map b v

theorem copAt' {q p : Table K} {s : Int} {x : K} {x' : L} (hx : φ x = x') : copAt (tT φ q) (tT φ p) s x' = (copAt q p s x).map φ := by
  subst hx
  unfold copAt
  rw [get_map, get_map]
  refine bind_map fun a => ?_
  rw [pyNum_map]
  refine bind_map fun b => bind_map fun c => ?_
  rw [pyNum_map]
  exact bind_map fun d => pdiv_map b d

theorem pdiv' {a b : K} {a' b' : L} (ha : φ a = a') (hb : φ b = b') : pdiv a' b' = (pdiv a b).map φ := by
  subst ha hb; exact pdiv_map a b

theorem biquad' {c : List K} {c' : List L} (hc : c.map φ = c') {a b : K} {a' b' : L} (ha : φ a = a') (hb : φ b = b') : calcBiquad c' a' b' = (calcBiquad c a b).map φ := by
  subst hc ha hb
  unfold calcBiquad
  simp only [pyGet_map]
  refine bind_map fun c0 => bind_map fun c1 => bind_map fun c2 => bind_map fun c3 => bind_map fun c4 => bind_map fun c5 => ?_
  simp [pure_eq_ok, Except.map]

theorem f5 : φ (frF 5) = frF 5 := by rw [frF_map]; congr 1; exact L! 5
theorem f17 : φ (frF 17) = frF 17 := by rw [frF_map]; congr 1; exact L! 17
theorem f47 : φ (frF 47) = frF 47 := by rw [frF_map]; congr 1; exact L! 47
theorem f60 : φ (frF 60) = frF 60 := by rw [frF_map]; congr 1; exact L! 60
theorem f82 : φ (frF 82) = frF 82 := by rw [frF_map]; congr 1; exact L! 82
theorem f95 : φ (frF 95) = frF 95 := by rw [frF_map]; congr 1; exact L! 95

theorem init' {l : List K} {l' : List L} (h : l.map φ = l') (n : Nat) : Table.init l' n = tT φ (Table.init l n) := by subst h; exact init_map l n

theorem cap' : (Nrel.coolingCapFT (K := K)).map φ = Nrel.coolingCapFT := by
  simp only [Nrel.coolingCapFT, List.map_cons, List.map_nil]
  congr 1
  · exact L! 3.717717741
  congr 1
  · exact L! (-0.09918866)
  congr 1
  · exact L! 0.000964488
  congr 1
  · exact L! 0.005887776
  congr 1
  · exact L! (-0.000012808)
  congr 1
  · exact L! (-0.000132822)

theorem ceir' : (Nrel.coolingEirFT (K := K)).map φ = Nrel.coolingEirFT := by
  simp only [Nrel.coolingEirFT, List.map_cons, List.map_nil]
  congr 1
  · exact L! (-3.400341169)
  congr 1
  · exact L! 0.135184783
  congr 1
  · exact L! (-0.001037932)
  congr 1
  · exact L! (-0.007852322)
  congr 1
  · exact L! 0.000183438
  congr 1
  · exact L! (-0.000142548)

theorem heir' : (Nrel.heatingEirFT (K := K)).map φ = Nrel.heatingEirFT := by
  simp only [Nrel.heatingEirFT, List.map_cons, List.map_nil]
  congr 1
  · exact L! 0.722917608
  congr 1
  · exact L! 0.003520184
  congr 1
  · exact L! 0.000143097
  congr 1
  · exact L! (-0.005760341)
  congr 1
  · exact L! 0.000141736
  congr 1
  · exact L! (-0.000216676)

/-- A pair of tables. -/
def ppT (φ : K →+* L) (p : Table K × Table K) : Table L × Table L := (tT φ p.1, tT φ p.2)

include hφ in
theorem coolingExtremes_map {mx : K} {mx' : L} (hm : φ mx = mx') (qc pc : Table K) : coolingExtremes mx' (tT φ qc) (tT φ pc) = (coolingExtremes mx qc pc).map (ppT φ) := by
  unfold coolingExtremes
  have hl : Option.map φ (some (0.5 : K)) = some (0.5 : L) := congrArg some (L! 0.5)
  exact step (add' hφ f60 hl) fun qc => step (add' hφ f60 hl) fun pc => step (add0 hφ hm) fun qc => step (add0 hφ hm) fun pc => rfl

include hφ in
theorem heatingExtremes_map {mn : K} {mn' : L} (hm : φ mn = mn') (t : Table K) : heatingExtremes mn' (tT φ t) = (heatingExtremes mn t).map (tT φ) := by
  unfold heatingExtremes
  exact step (add0 hφ f5) fun t => step (add0 hφ hm) fun t => (add0 hφ f60).exec t

include hφ in
theorem finish_map (a b c d : Table K) : finish (tT φ a) (tT φ b) (tT φ c) (tT φ d) = (finish a b c d).map (pT φ) := by
  unfold finish
  exact step (setInterpolator_sim hφ) fun a => step (setInterpolator_sim hφ) fun b => step (setInterpolator_sim hφ) fun c => step (setInterpolator_sim hφ) fun d => perfInit_map a b c d

/-! ## Single speed -/

variable {u : Units K} {u' : Units L} (hu : φ u.btuh = u'.btuh)

include hφ hu in
theorem singleCooling_map (q seer eer mx cd : K) : singleCooling u' (φ q) (φ seer) (φ eer) (φ mx) (φ cd) = (singleCooling u q seer eer mx cd).map (ppT φ) := by
  unfold singleCooling
  rw [biquad' cap' (L! 67) (L! 82)]
  refine bind_map fun b => ?_
  rw [pdiv' (map_one φ) rfl]
  refine bind_map fun qm => ?_
  rw [init' (φ := φ) (l := [frF 82, frF 95]) (by simp [f82, f95])]
  refine step (set' f95 rfl 1) fun qc => step (maint' f82 f95 rfl .cooling 1) fun qc => ?_
  rw [over' f95 (show φ (eer * u.btuh) = φ eer * u'.btuh by rw [map_mul, hu])]
  refine bind_map fun p95 => step (set' f95 rfl 1) fun pc => ?_
  rw [pdiv' rfl (show φ (1 - 0.5 * cd) = 1 - 0.5 * φ cd by rw [map_sub, map_mul, map_one, L! 0.5])]
  refine bind_map fun e => ?_
  rw [over' f82 (show φ (e * u.btuh) = φ e * u'.btuh by rw [map_mul, hu])]
  exact bind_map fun p82 => step (set' f82 rfl 1) fun pc => coolingExtremes_map hφ rfl qc pc

theorem qm17_map {d : K} {d' : L} (hd : φ d = d') (q47 : K) (q17 : Option K) : qm17 d' (φ q47) (q17.map φ) = (qm17 d q47 q17).map φ := by
  subst hd
  cases q17 with
  | none => rfl
  | some q => exact pdiv_map q q47

theorem cop47_map (hspf : K) (c : Option K) : φ (cop47 hspf c) = cop47 (φ hspf) (c.map φ) := by
  cases c with
  | some c => rfl
  | none =>
    simp only [cop47, Option.map_none, Option.getD_none, map_add, map_mul]
    rw [L! 2.837, L! 0.066]

include hφ in
theorem singleHeating_map (q47 : K) (q17 : Option K) (hspf mn : K) (c : Option K) :
    singleHeating (φ q47) (q17.map φ) (φ hspf) (φ mn) (c.map φ) = (singleHeating q47 q17 hspf mn c).map (ppT φ) := by
  unfold singleHeating
  rw [biquad' heir' (L! 70) (L! 17)]
  refine bind_map fun e => ?_
  rw [qm17_map (L! 0.626)]
  refine bind_map fun qm => ?_
  rw [init' (φ := φ) (l := [frF 17, frF 47]) (by simp [f17, f47])]
  refine step (set' f47 rfl 1) fun qh => step (maint' f17 f47 rfl .heating 1) fun qh => ?_
  rw [heatingExtremes_map hφ rfl]
  refine bind_map fun qh => ?_
  rw [over' f47 (cop47_map hspf c)]
  refine bind_map fun p => step (set' f47 rfl 1) fun ph => step (maint' f17 f47 (map_mul φ qm e) .heating 1) fun ph => ?_
  rw [heatingExtremes_map hφ rfl]
  exact bind_map fun ph => rfl

include hφ hu in
/-- The single-speed builder commutes with the homomorphism. -/
theorem makeSingleSpeed_map (q95 seer eer q47 : K) (q17 : Option K) (hspf mx mn : K) (c : Option K) (cd : K) :
    makeSingleSpeed u' (φ q95) (φ seer) (φ eer) (φ q47) (q17.map φ) (φ hspf) (φ mx) (φ mn) (c.map φ) (φ cd) =
      (makeSingleSpeed u q95 seer eer q47 q17 hspf mx mn c cd).map (pT φ) := by
  unfold makeSingleSpeed
  rw [singleCooling_map hφ hu]
  refine bind_map fun p => ?_
  obtain ⟨qc, pc⟩ := p
  simp only [ppT]
  rw [singleHeating_map hφ]
  refine bind_map fun p => ?_
  obtain ⟨qh, ph⟩ := p
  exact finish_map hφ qc pc qh ph

/-! ## Two speeds -/

include hφ hu in
theorem twoCooling_map (q seer eer mx : K) (c : Option K) : twoCooling u' (φ q) (φ seer) (φ eer) (φ mx) (c.map φ) = (twoCooling u q seer eer mx c).map (ppT φ) := by
  unfold twoCooling
  rw [biquad' cap' (L! 67) (L! 82), biquad' ceir' (L! 67) (L! 82)]
  refine bind_map fun b => ?_
  rw [pdiv' (map_one φ) rfl]
  refine bind_map fun qm => bind_map fun b => ?_
  rw [pdiv' (map_one φ) rfl]
  refine bind_map fun em => ?_
  rw [init' (φ := φ) (l := [frF 82, frF 95]) (by simp [f82, f95])]
  have h728 : φ (0.728 : K) = 0.728 := L! 0.728
  refine step (set' f95 rfl 2) fun qc => step (ratio' f95 h728 1) fun qc => step (maint' f82 f95 rfl .cooling 2) fun qc => step (ratio' f82 h728 1) fun qc => ?_
  rw [over' f95 (show φ (eer * u.btuh) = φ eer * u'.btuh by rw [map_mul, hu])]
  refine bind_map fun p95 => step (set' f95 rfl 2) fun pc => step (maint' f82 f95 (map_mul φ qm em) .cooling 2) fun pc => ?_
  rw [over' f82 (show φ (c.getD (seer / 2)) = (c.map φ).getD (φ seer / 2) by cases c <;> simp [show φ (2 : K) = 2 from L! 2])]
  exact bind_map fun p82 => step (set' f82 rfl 1) fun pc => step (maint' f95 f82 (map_mul φ qm em) .cooling 1) fun pc => coolingExtremes_map hφ rfl qc pc

include hφ in
theorem twoHeating_map (q47 : K) (q17 : Option K) (hspf mn : K) (c : Option K) :
    twoHeating (φ q47) (q17.map φ) (φ hspf) (φ mn) (c.map φ) = (twoHeating q47 q17 hspf mn c).map (ppT φ) := by
  unfold twoHeating
  rw [biquad' heir' (L! 70) (L! 17)]
  refine bind_map fun e => ?_
  rw [qm17_map (L! 0.626)]
  refine bind_map fun qm => ?_
  rw [init' (φ := φ) (l := [frF 17, frF 47]) (by simp [f17, f47])]
  have h712 : φ (0.712 : K) = 0.712 := L! 0.712
  have hpr : φ (0.712 * 0.850 : K) = 0.712 * 0.850 := by rw [map_mul, h712, L! 0.850]
  refine step (set' f47 rfl 2) fun qh => step (ratio' f47 h712 1) fun qh => step (maint' f17 f47 rfl .heating 2) fun qh => step (ratio' f17 h712 1) fun qh => ?_
  rw [heatingExtremes_map hφ rfl]
  refine bind_map fun qh => ?_
  rw [over' f47 (cop47_map hspf c)]
  refine bind_map fun p => step (set' f47 rfl 2) fun ph => step (ratio' f47 hpr 1) fun ph => step (maint' f17 f47 (map_mul φ qm e) .heating 2) fun ph => step (ratio' f17 hpr 1) fun ph => ?_
  rw [heatingExtremes_map hφ rfl]
  exact bind_map fun ph => rfl

include hφ hu in
/-- The two-speed builder commutes with the homomorphism. -/
theorem makeTwoSpeed_map (q95 seer eer q47 : K) (q17 : Option K) (hspf mx mn : K) (c82 c : Option K) :
    makeTwoSpeed u' (φ q95) (φ seer) (φ eer) (φ q47) (q17.map φ) (φ hspf) (φ mx) (φ mn) (c82.map φ) (c.map φ) =
      (makeTwoSpeed u q95 seer eer q47 q17 hspf mx mn c82 c).map (pT φ) := by
  unfold makeTwoSpeed
  rw [twoCooling_map hφ hu]
  refine bind_map fun p => ?_
  obtain ⟨qc, pc⟩ := p
  simp only [ppT]
  rw [twoHeating_map hφ]
  refine bind_map fun p => ?_
  obtain ⟨qh, ph⟩ := p
  exact finish_map hφ qc pc qh ph

/-! ## Variable speed -/

include hφ in
theorem bracket_map (x : K) (a b : K) : φ (bracket x (some a) (some b)) = bracket (φ x) (some (φ a)) (some (φ b)) := by
  unfold bracket
  simp only [hφ.lt_iff_lt]
  split
  · rfl
  · split <;> rfl

include hφ in
theorem eirr82_map (seer eer : K) (c : Option K) (q p : Table K) :
    eirr82 (φ seer) (φ eer) (c.map φ) (tT φ q) (tT φ p) = (eirr82 seer eer c q p).map (fun r => (φ r.1, φ r.2)) := by
  unfold eirr82
  cases c with
  | none =>
    simp only [Option.map_none]
    rw [pdiv' (show φ (0.324 * seer) = 0.324 * φ seer by rw [map_mul, L! 0.324]) rfl]
    refine bind_map fun r => ?_
    rw [copAt' f82]
    refine bind_map fun v => ?_
    have hb : bracket (1.305 - φ r) (some 0.2) (some 1) = φ (bracket (1.305 - r) (some 0.2) (some 1)) := by
      rw [bracket_map hφ, map_sub, map_one, L! 1.305, L! 0.2]
    rw [hb, pdiv_map]
    exact bind_map fun x => rfl
  | some c =>
    simp only [Option.map_some]
    rw [copAt' f82]
    refine bind_map fun v => ?_
    rw [pdiv_map]
    exact bind_map fun x => rfl

include hφ in
theorem qr95min_map (g : Option K) (e : K) : φ (qr95min g e) = qr95min (g.map φ) (φ e) := by
  unfold qr95min
  cases g with
  | some g => rfl
  | none =>
    simp only [Option.map_none, Option.getD_none]
    rw [bracket_map hφ]
    simp only [map_sub, map_div₀, map_mul, map_neg]
    rw [L! 0.510, L! 0.119,
      L! 1.305, L! 0.324,
      L! 0.1, L! 0.934]

theorem mulLit {a b : K} {a' b' : L} (ha : φ a = a') (hb : φ b = b') : φ (a * b) = a' * b' := by rw [map_mul, ha, hb]

include hφ hu in
theorem neepStatCooling_map (q seer eer mx : K) (r c : Option K) :
    neepStatCooling u' (φ q) (φ seer) (φ eer) (φ mx) (r.map φ) (c.map φ) = (neepStatCooling u q seer eer mx r c).map (ppT φ) := by
  unfold neepStatCooling
  rw [init' (φ := φ) (l := [frF 82, frF 95]) (by simp [f82, f95])]
  refine step (set' f95 rfl 2) fun qc => step (ratio' f95 (L! 0.934) 3) fun qc =>
    step (maint' f82 f95 (L! 0.940) .cooling 3) fun qc => ?_
  rw [over' f95 (show φ (eer * u.btuh) = φ eer * u'.btuh by rw [map_mul, hu])]
  refine bind_map fun p95 => step (set' f95 rfl 2) fun pc => step (ratio' f95 (mulLit (L! 0.934) (L! 0.928)) 3) fun pc =>
    step (maint' f82 f95 (mulLit (L! 0.940) (L! 1.326)) .cooling 3) fun pc => ?_
  rw [eirr82_map hφ]
  refine bind_map fun e => ?_
  obtain ⟨e, c82⟩ := e
  refine step (ratio' f95 (qr95min_map hφ r e) 1) fun qc => step (maint' f82 f95 (L! 0.948) .cooling 1) fun qc => step (interp' f82 2) fun qc => ?_
  rw [over' f82 rfl]
  exact bind_map fun p82 => step (set' f82 rfl 1) fun pc =>
    step (maint' f95 f82 (mulLit (L! 0.948) (L! 1.315)) .cooling 1) fun pc => step (interp' f82 2) fun pc =>
    coolingExtremes_map hφ rfl qc pc

theorem lct_map {s : K} {s' : L} (hs : φ s = s') (mn : K) : lctFactor s' (φ mn) = (lctFactor s mn).map φ := by
  unfold lctFactor
  refine pdiv' (map_one φ) ?_
  simp only [map_sub, map_mul, map_div₀, map_one, f5, hs]
  rw [L! 9, L! 5]

include hφ in
theorem neepStatHeatingQ_map (q47 qm mn : K) : neepStatHeatingQ (φ q47) (φ qm) (φ mn) = (neepStatHeatingQ q47 qm mn).map (tT φ) := by
  unfold neepStatHeatingQ
  rw [init' (φ := φ) (l := [mn, frF 5, frF 17, frF 47]) (by simp [f5, f17, f47])]
  refine step (set' f47 rfl 2) fun t => step (ratio' f47 (L! 0.908) 3) fun t => step (ratio' f47 (L! 0.272) 1) fun t =>
    step (maint' f17 f47 rfl .heating 2) fun t => step (ratio' f17 (L! 0.817) 3) fun t => step (ratio' f17 (L! 0.341) 1) fun t =>
    step (maint' f5 f17 (L! 0.866) .heating 3) fun t => step (ratio' f5 (L! 0.988) 2) fun t =>
    step (ratio' f5 (L! 0.321) 1) fun t => ?_
  rw [lct_map (L! (-0.025)), lct_map (L! (-0.024))]
  exact bind_map fun a => bind_map fun b => step (maint' rfl f5 rfl .heating 3) fun t => step (maint' rfl f5 rfl .heating 1) fun t => step (interp' rfl 2) fun t =>
    (add0 hφ f60).exec t

include hφ in
theorem neepStatHeatingP_map (qm hspf mn : K) (c : Option K) (q : Table K) :
    neepStatHeatingP (φ qm) (φ hspf) (φ mn) (c.map φ) (tT φ q) = (neepStatHeatingP qm hspf mn c q).map (tT φ) := by
  unfold neepStatHeatingP
  rw [init' (φ := φ) (l := [mn, frF 5, frF 17, frF 47]) (by simp [f5, f17, f47])]
  rw [over' f47 (cop47_map hspf c)]
  refine bind_map fun p => step (set' f47 rfl 2) fun t => step (ratio' f47 (mulLit (L! 0.908) (L! 0.939)) 3) fun t =>
    step (ratio' f47 (mulLit (L! 0.272) (L! 0.730)) 1) fun t =>
    step (maint' f17 f47 (mulLit rfl (L! 1.351)) .heating 2) fun t =>
    step (ratio' f17 (mulLit (L! 0.817) (L! 0.902)) 3) fun t =>
    step (ratio' f17 (mulLit (L! 0.341) (L! 0.798)) 1) fun t =>
    step (maint' f5 f17 (mulLit (L! 0.866) (L! 1.164)) .heating 3) fun t =>
    step (ratio' f5 (mulLit (L! 0.988) (L! 1.000)) 2) fun t =>
    step (ratio' f5 (mulLit (L! 0.321) (L! 0.866)) 1) fun t => ?_
  rw [lct_map (L! 0.012)]
  have hm : ∀ s, (tT φ q).getMaintenance s (φ mn) (frF 5) = (q.getMaintenance s mn (frF 5)).map φ := fun s => by rw [← f5 (φ := φ)]; exact getMaintenance_map q s mn (frF 5)
  rw [hm, hm]
  exact bind_map fun a => bind_map fun b => bind_map fun c => bind_map fun d => step (maint' rfl f5 (map_mul φ a c) .heating 3) fun t =>
    step (maint' rfl f5 (map_mul φ b d) .heating 1) fun t => step (interp' rfl 2) fun t => (add0 hφ f60).exec t

include hφ hu in
/-- The variable-speed builder commutes with the homomorphism. -/
theorem makeNeepStatistical_map (q95 seer eer q47 : K) (q17 : Option K) (hspf mx mn : K) (r c82 c : Option K) :
    makeNeepStatistical u' (φ q95) (φ seer) (φ eer) (φ q47) (q17.map φ) (φ hspf) (φ mx) (φ mn) (r.map φ) (c82.map φ) (c.map φ) =
      (makeNeepStatistical u q95 seer eer q47 q17 hspf mx mn r c82 c).map (pT φ) := by
  unfold makeNeepStatistical
  rw [neepStatCooling_map hφ hu]
  refine bind_map fun p => ?_
  obtain ⟨qc, pc⟩ := p
  simp only [ppT]
  rw [qm17_map (L! 0.689)]
  refine bind_map fun qm => ?_
  rw [neepStatHeatingQ_map hφ]
  refine bind_map fun qh => ?_
  rw [neepStatHeatingP_map hφ]
  exact bind_map fun ph => finish_map hφ qc pc qh ph

end Resdx.Transfer
