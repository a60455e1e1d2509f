import Verif.Spec.IdfFile
import Verif.Spec.Curves

/-! # Specification of the performance data of an EnergyPlus file in terms of a performance map -/

namespace Resdx.Spec.Idf

open Resdx.Idf

variable {K : Type} [Field K] [LinearOrder K]

/-- How cooling capacity changes with the indoor wet bulb `x` at the outdoor temperature `t` (°F), relative to 67 °F. -/
def coolCapX (x t : K) : K := coolCapT (clip 57 72 x) (max 75 t) / coolCapT 67 (max 75 t)

/-- How the cooling energy input ratio changes with the indoor wet bulb. -/
def coolEirX (x t : K) : K := coolEirT (clip 57 72 x) (max 75 t) / coolEirT 67 (max 75 t)

/-- How heating capacity changes with the indoor dry bulb `x` at the outdoor temperature `t` (°F), relative to 70 °F. -/
def heatCapX (x t : K) : K := heatCapT x t / heatCapT 70 t

/-- How the heating energy input ratio changes with the indoor dry bulb. -/
def heatEirX (x t : K) : K := heatEirT x t / heatEirT 70 t

/-- The four tables of one speed whose gross capacity and power at rated indoor air and airflow are `Q t` and `P t` at the outdoor temperature `t` (°F): capacity and energy input ratio are
`Q` and `P / Q` times factors for the indoor temperature (`capX`, `eirX`) or the airflow (`capR`, `eirR`); relative to the values at the temperature `rated` if normalised. -/
structure SpeedCurves (fmt : K → Nat → String) (toAxis : K → K) (objs : List IObj) (normalize : Bool) (Q P : K → K) (rated : K) (capX eirX : K → K → K) (capR eirR : K → K)
    (inner outer flows : List K) (capT capF eirT eirF : String) : Prop where
  capT : ∃ t, named objs capT = [t] ∧ t.cls = "Table:Lookup" ∧ Tabulates2 objs t (fun x => fmt (toAxis x) 2) inner outer fun x y s =>
    s = fmt (Q y * capX x y / if normalize then Q rated else 1) 2
  capF : ∃ t, named objs capF = [t] ∧ t.cls = "Table:Lookup" ∧ Tabulates1 objs t (fun x => fmt x 2) flows fun r s =>
    s = fmt (Q rated * capR r / if normalize then Q rated else 1) 2
  eirT : ∃ t, named objs eirT = [t] ∧ t.cls = "Table:Lookup" ∧ Tabulates2 objs t (fun x => fmt (toAxis x) 2) inner outer fun x y s =>
    s = fmt (P y / Q y * eirX x y / if normalize then P rated / Q rated else 1) 4
  eirF : ∃ t, named objs eirF = [t] ∧ t.cls = "Table:Lookup" ∧ Tabulates1 objs t (fun x => fmt x 2) flows fun r s =>
    s = fmt (P rated / Q rated * eirR r / if normalize then P rated / Q rated else 1) 4

theorem Tabulates1.mono {objs : List IObj} {t : IObj} {axis : K → String} {xs : List K} {f g : K → String → Prop} (h : Tabulates1 objs t axis xs f)
    (hfg : ∀ x ∈ xs, ∀ s, f x s → g x s) : Tabulates1 objs t axis xs g := by
  obtain ⟨a, h1, h2, h3, h4⟩ := h
  refine ⟨a, h1, h2, h3, fun i x hx => ?_⟩
  obtain ⟨s, hs, hf⟩ := h4 i x hx
  exact ⟨s, hs, hfg x (List.mem_of_getElem? hx) s hf⟩

theorem Tabulates2.mono {objs : List IObj} {t : IObj} {axis : K → String} {xs ys : List K} {f g : K → K → String → Prop} (h : Tabulates2 objs t axis xs ys f)
    (hfg : ∀ x ∈ xs, ∀ y ∈ ys, ∀ s, f x y s → g x y s) : Tabulates2 objs t axis xs ys g := by
  obtain ⟨a, b, h1, h2, h3, h4, h5⟩ := h
  refine ⟨a, b, h1, h2, h3, h4, fun i j x y hx hy => ?_⟩
  obtain ⟨s, hs, hf⟩ := h5 i j x y hx hy
  exact ⟨s, hs, hfg x (List.mem_of_getElem? hx) y (List.mem_of_getElem? hy) s hf⟩

end Resdx.Spec.Idf
