import Verif.Model.Profile

/-! The plots that rigid_bodies_app_gui.py and rigid_bodies_app_cmd.py draw from the log of the engine.  As in Model/Profile.lean the timings and the number of
overlaps are not in the log, so the figure of the timings and the line of the overlaps are left out; so are the looks of the figures. -/

namespace Verif.Rigid

/-- `ax.plot(y, label, color)` or `ax.semilogy(y, color)`: the y values (over x = 0, 1, ...), `none` for np.inf. -/
structure PlotLine (κ : Type) where
  label : String
  color : κ
  y : List (Option ℝ)

structure Figure (κ : Type) where
  title : String
  semilogy : Bool
  lines : List (PlotLine κ)

/-- rigid_bodies_app_gui.py:23-46 `colors`. -/
def plotColors : List String :=
  ["#e6194b", "#3cb44b", "#ffe119", "#4363d8", "#f58231", "#911eb4", "#46f0f0", "#f032e6", "#bcf60c", "#fabebe", "#008080", "#e6beff", "#9a6324",
   "#fffac8", "#800000", "#aaffc3", "#808000", "#ffd8b1", "#000075", "#808080", "#ffffff", "#000000"]

/-- `colors[i]` -/
def plotColor (i : ℕ) : String := plotColors.getD i ""

/-- rigid_bodies_app_gui.py:54-61, rigid_bodies_app_cmd.py:86-92: one line for every record that has the key 'residuals'; `col` is the colour of the i-th record. -/
def convergenceLines {κ : Type} (col : ℕ → κ) (log : List Entry) : List (PlotLine κ) :=
  log.zipIdx.filterMap fun x => x.1.solver.map fun R => ⟨"", col x.2, R.residuals⟩

/-- rigid_bodies_app_gui.py:19-118 `plotting`: convergence, profiling data (from the record 1 on: `range(1, len(profiling_data))`) and energies. -/
def plotting (log : List Entry) : List (Figure String) :=
  [⟨"Convergence rates", true, convergenceLines (fun i => plotColor (i % 20)) log⟩,
   ⟨"Profiling data", false,
    [⟨"Step size", plotColor 1, (log.drop 1).map fun e => some e.dt⟩,
     ⟨"Contacts", plotColor 2, (log.drop 1).map fun e => some (e.contact_points : ℝ)⟩,
     ⟨"Penetrations", plotColor 6, (log.drop 1).map fun e => some e.max_penetration⟩]⟩,
   ⟨"Energy Plots", false,
    [⟨"Kinetic Energy", plotColor 4, log.map fun e => some e.kinetic_energy⟩,
     ⟨"Potential Energy", plotColor 5, log.map fun e => some e.potential_energy⟩]⟩]

/-- rigid_bodies_app_gui.py:254-257: when the window is closed; the engine is `None` until a scene was created. -/
def guiEnd (profiling : Bool) (engine_log : Option (List Entry)) : Except PyErr (List (Figure String)) :=
  if profiling then
    match engine_log with
    | none => .error .attributeError
    | some log => .ok (plotting log)
  else .ok []

/-- `np.linspace(0, 1, n)[i]` -/
noncomputable def linspace01 (n i : ℕ) : ℝ := if n = 1 then 0 else i / ((n : ℝ) - 1)

/-- rigid_bodies_app_cmd.py:71-93 `plot`; a colour of the colour map is named by its number in [0, 1]. -/
noncomputable def cmdPlot (log : List Entry) : Figure ℝ :=
  ⟨"Convergence Rate of Engine Optimization", true, convergenceLines (linspace01 log.length) log⟩

end Verif.Rigid
