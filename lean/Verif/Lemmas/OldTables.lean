import Verif.Lemmas.OldFiles

/-! The loaders of older versions, one by one. -/

namespace DiscSolver.FileFormat

/-! ## The versions -/

/-- Proving that a table agrees. -/
macro "agree" t:ident : tactic => `(tactic| exact
  { read := by decide +kernel
    const := AllConst.const (t := $t) (by
      repeat refine And.intro rfl ?_
      exact trivial)
    default := AllDefault.default (args := ($t).map (·.1)) (by
      repeat refine And.intro rfl ?_
      exact trivial)
    known := by decide +kernel })

theorem agrees_ConfigInput4 : Agrees .ConfigInput 4 loadConfigInput4 := by
  agree loadConfigInput4

theorem agrees_ConfigInput6 : Agrees .ConfigInput 6 loadConfigInput6 := by
  agree loadConfigInput6

theorem agrees_ConfigInput7 : Agrees .ConfigInput 7 loadConfigInput7 := by
  agree loadConfigInput7

theorem agrees_ConfigInput8 : Agrees .ConfigInput 8 loadConfigInput8 := by
  agree loadConfigInput8

theorem agrees_ConfigInput9 : Agrees .ConfigInput 9 loadConfigInput9 := by
  agree loadConfigInput9

theorem agrees_ConfigInput10 : Agrees .ConfigInput 10 loadConfigInput10 := by
  agree loadConfigInput10

theorem agrees_ConfigInput11 : Agrees .ConfigInput 11 loadConfigInput11 := by
  agree loadConfigInput11

theorem agrees_ConfigInput12 : Agrees .ConfigInput 12 loadConfigInput12 := by
  agree loadConfigInput12

theorem agrees_ConfigInput13 : Agrees .ConfigInput 13 loadConfigInput13 := by
  agree loadConfigInput13

theorem agrees_ConfigInput14 : Agrees .ConfigInput 14 loadConfigInput14 := by
  agree loadConfigInput14

theorem agrees_SolutionInput4 : Agrees .SolutionInput 4 loadSolutionInput4 := by
  agree loadSolutionInput4

theorem agrees_SolutionInput6 : Agrees .SolutionInput 6 loadSolutionInput6 := by
  agree loadSolutionInput6

theorem agrees_SolutionInput7 : Agrees .SolutionInput 7 loadSolutionInput7 := by
  agree loadSolutionInput7

theorem agrees_SolutionInput8 : Agrees .SolutionInput 8 loadSolutionInput8 := by
  agree loadSolutionInput8

theorem agrees_SolutionInput9 : Agrees .SolutionInput 9 loadSolutionInput9 := by
  agree loadSolutionInput9

theorem agrees_SolutionInput10 : Agrees .SolutionInput 10 loadSolutionInput10 := by
  agree loadSolutionInput10

theorem agrees_SolutionInput11 : Agrees .SolutionInput 11 loadSolutionInput11 := by
  agree loadSolutionInput11

theorem agrees_SolutionInput12 : Agrees .SolutionInput 12 loadSolutionInput12 := by
  agree loadSolutionInput12

theorem agrees_SolutionInput13 : Agrees .SolutionInput 13 loadSolutionInput13 := by
  agree loadSolutionInput13

theorem agrees_SolutionInput14 : Agrees .SolutionInput 14 loadSolutionInput14 := by
  agree loadSolutionInput14

theorem agrees_Solution1 : Agrees .Solution 1 loadSolution1 := by
  agree loadSolution1

theorem agrees_Solution2 : Agrees .Solution 2 loadSolution2 := by
  agree loadSolution2

theorem agrees_Solution3 : Agrees .Solution 3 loadSolution3 := by
  agree loadSolution3

theorem agrees_Solution4 : Agrees .Solution 4 loadSolution4 := by
  agree loadSolution4

theorem agrees_Run1 : Agrees .Run 1 loadRun1 := by
  agree loadRun1

theorem agrees_Run2 : Agrees .Run 2 loadRun2 := by
  agree loadRun2

theorem agrees_Run3 : Agrees .Run 3 loadRun3 := by
  agree loadRun3

theorem agrees_Run4 : Agrees .Run 4 loadRun4 := by
  agree loadRun4

theorem agrees_Run5 : Agrees .Run 5 loadRun5 := by
  agree loadRun5

theorem agrees_Run6 : Agrees .Run 6 loadRun6 := by
  agree loadRun6

end DiscSolver.FileFormat
