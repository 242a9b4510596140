import Mathlib.Data.Real.Basic

/-! The limits of the axes of the figures: python_utils/utils.py.  The axes are 0, 1, 2 for x, y, z. -/
namespace Verif.Figure

/-- The limits of the three axes of a figure, as `get_xlim`, `get_ylim`, `get_zlim` return them: the first may exceed
the second (an inverted axis).  matplotlib's choice of limits while plotting is not modelled. -/
abbrev Limits := Fin 3 → ℝ × ℝ

/-- utils.py 7 (`sz`): the second limit minus the first. -/
noncomputable def size (l : Limits) (d : Fin 3) : ℝ := (l d).2 - (l d).1

/-- utils.py 8 (`centers`): the mean of the two limits. -/
noncomputable def center (l : Limits) (d : Fin 3) : ℝ := ((l d).1 + (l d).2) / 2

/-- utils.py 9 (`maxsize`): Python's `max` over the array of absolute values. -/
noncomputable def maxsize (l : Limits) : ℝ := max (max |size l 0| |size l 1|) |size l 2|

/-- utils.py 5-12 (`axis_equal_3d`): each axis keeps its center and gets half of `maxsize` on either side.
`set_xlim` is taken to set the limits it is given (matplotlib widens a pair of equal limits). -/
noncomputable def axisEqual3d (l : Limits) : Limits :=
  fun d => (center l d - maxsize l / 2, center l d + maxsize l / 2)

end Verif.Figure
