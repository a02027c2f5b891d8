import Mathlib.Data.Real.Basic
import Mathlib.Tactic.Ring
import Mathlib.Tactic.Positivity
/-!
Polynomial inequalities used for the accuracy of the fast exponential and logarithm. Generated by
/verif/tools/genpoly.py (Bernstein-basis certificates); checked here by `ring` and `positivity`.
-/
namespace CCGL.MathFn

theorem expPoly_up_0 (x : ℝ) (h1 : (0) ≤ x) (h2 : x ≤ (139 / 1600)) : 0 ≤ (19 / 5000000) + (-329 / 2500000) * x ^ 1 + (8537 / 5000000) * x ^ 2 + (-53501 / 7500000) * x ^ 3 + (369077 / 30000000) * x ^ 4 + (-1 / 120) * x ^ 5 + (1 / 720) * x ^ 6 + (-1 / 5040) * x ^ 7 + (1 / 40320) * x ^ 8 := by
  have e1 : 0 ≤ x - (0) := sub_nonneg.2 h1
  have e2 : 0 ≤ (139 / 1600) - x := sub_nonneg.2 h2
  have e : (19 / 5000000) + (-329 / 2500000) * x ^ 1 + (8537 / 5000000) * x ^ 2 + (-53501 / 7500000) * x ^ 3 + (369077 / 30000000) * x ^ 4 + (-1 / 120) * x ^ 5 + (1 / 720) * x ^ 6 + (-1 / 5040) * x ^ 7 + (1 / 40320) * x ^ 8 = (163208757248000000000 / 139353667211683681) * (x - (0)) ^ 0 * ((139 / 1600) - x) ^ 8 + (814637184450560000000 / 139353667211683681) * (x - (0)) ^ 1 * ((139 / 1600) - x) ^ 7 + (1686073220949606400000 / 139353667211683681) * (x - (0)) ^ 2 * ((139 / 1600) - x) ^ 6 + (5843595125560705024000 / 418061001635051043) * (x - (0)) ^ 3 * ((139 / 1600) - x) ^ 5 + (4698039452500726251520 / 418061001635051043) * (x - (0)) ^ 4 * ((139 / 1600) - x) ^ 4 + (3397453244030261166080 / 418061001635051043) * (x - (0)) ^ 5 * ((139 / 1600) - x) ^ 3 + (6538389826124625839360 / 1254183004905153129) * (x - (0)) ^ 6 * ((139 / 1600) - x) ^ 2 + (18893601796384176508100 / 8779281034336071903) * (x - (0)) ^ 7 * ((139 / 1600) - x) ^ 1 + (2141080629813130342781281 / 5618739861975086017920) * (x - (0)) ^ 8 * ((139 / 1600) - x) ^ 0 := by ring
  rw [e]; positivity

theorem expPoly_up_1 (x : ℝ) (h1 : (139 / 1600) ≤ x) (h2 : x ≤ (139 / 800)) : 0 ≤ (19 / 5000000) + (-329 / 2500000) * x ^ 1 + (8537 / 5000000) * x ^ 2 + (-53501 / 7500000) * x ^ 3 + (369077 / 30000000) * x ^ 4 + (-1 / 120) * x ^ 5 + (1 / 720) * x ^ 6 + (-1 / 5040) * x ^ 7 + (1 / 40320) * x ^ 8 := by
  have e1 : 0 ≤ x - (139 / 1600) := sub_nonneg.2 h1
  have e2 : 0 ≤ (139 / 800) - x := sub_nonneg.2 h2
  have e : (19 / 5000000) + (-329 / 2500000) * x ^ 1 + (8537 / 5000000) * x ^ 2 + (-53501 / 7500000) * x ^ 3 + (369077 / 30000000) * x ^ 4 + (-1 / 120) * x ^ 5 + (1 / 720) * x ^ 6 + (-1 / 5040) * x ^ 7 + (1 / 40320) * x ^ 8 = (2141080629813130342781281 / 5618739861975086017920) * (x - (139 / 1600)) ^ 0 * ((139 / 800) - x) ^ 8 + (1385336557957763282457281 / 351171241373442876120) * (x - (139 / 1600)) ^ 1 * ((139 / 800) - x) ^ 7 + (891128079147381255707681 / 50167320196206125160) * (x - (139 / 1600)) ^ 2 * ((139 / 800) - x) ^ 6 + (556531596061076427550081 / 12541830049051531290) * (x - (139 / 1600)) ^ 3 * ((139 / 800) - x) ^ 5 + (335999984807949678020321 / 5016732019620612516) * (x - (139 / 1600)) ^ 4 * ((139 / 800) - x) ^ 4 + (393071262970810628984962 / 6270915024525765645) * (x - (139 / 1600)) ^ 5 * ((139 / 800) - x) ^ 3 + (223600232417623855997762 / 6270915024525765645) * (x - (139 / 1600)) ^ 6 * ((139 / 800) - x) ^ 2 + (496673643798308748400648 / 43896405171680359515) * (x - (139 / 1600)) ^ 7 * ((139 / 800) - x) ^ 1 + (67534385973871228909762 / 43896405171680359515) * (x - (139 / 1600)) ^ 8 * ((139 / 800) - x) ^ 0 := by ring
  rw [e]; positivity

theorem expPoly_up_2 (x : ℝ) (h1 : (139 / 800) ≤ x) (h2 : x ≤ (139 / 400)) : 0 ≤ (19 / 5000000) + (-329 / 2500000) * x ^ 1 + (8537 / 5000000) * x ^ 2 + (-53501 / 7500000) * x ^ 3 + (369077 / 30000000) * x ^ 4 + (-1 / 120) * x ^ 5 + (1 / 720) * x ^ 6 + (-1 / 5040) * x ^ 7 + (1 / 40320) * x ^ 8 := by
  have e1 : 0 ≤ x - (139 / 800) := sub_nonneg.2 h1
  have e2 : 0 ≤ (139 / 400) - x := sub_nonneg.2 h2
  have e : (19 / 5000000) + (-329 / 2500000) * x ^ 1 + (8537 / 5000000) * x ^ 2 + (-53501 / 7500000) * x ^ 3 + (369077 / 30000000) * x ^ 4 + (-1 / 120) * x ^ 5 + (1 / 720) * x ^ 6 + (-1 / 5040) * x ^ 7 + (1 / 40320) * x ^ 8 = (33767192986935614454881 / 5618739861975086017920) * (x - (139 / 800)) ^ 0 * ((139 / 400) - x) ^ 8 + (19608686743009124907281 / 351171241373442876120) * (x - (139 / 800)) ^ 1 * ((139 / 400) - x) ^ 7 + (10799905060625224198081 / 50167320196206125160) * (x - (139 / 800)) ^ 2 * ((139 / 400) - x) ^ 6 + (5638259652733950240881 / 12541830049051531290) * (x - (139 / 800)) ^ 3 * ((139 / 400) - x) ^ 5 + (2801695182721667717921 / 5016732019620612516) * (x - (139 / 800)) ^ 4 * ((139 / 400) - x) ^ 4 + (2663587330430307680162 / 6270915024525765645) * (x - (139 / 800)) ^ 5 * ((139 / 400) - x) ^ 3 + (1217799873222760213762 / 6270915024525765645) * (x - (139 / 800)) ^ 6 * ((139 / 400) - x) ^ 2 + (2155960570715120531848 / 43896405171680359515) * (x - (139 / 800)) ^ 7 * ((139 / 400) - x) ^ 1 + (232912515241346151362 / 43896405171680359515) * (x - (139 / 800)) ^ 8 * ((139 / 400) - x) ^ 0 := by ring
  rw [e]; positivity

theorem expPoly_up_3 (x : ℝ) (h1 : (139 / 400) ≤ x) (h2 : x ≤ (139 / 200)) : 0 ≤ (19 / 5000000) + (-329 / 2500000) * x ^ 1 + (8537 / 5000000) * x ^ 2 + (-53501 / 7500000) * x ^ 3 + (369077 / 30000000) * x ^ 4 + (-1 / 120) * x ^ 5 + (1 / 720) * x ^ 6 + (-1 / 5040) * x ^ 7 + (1 / 40320) * x ^ 8 := by
  have e1 : 0 ≤ x - (139 / 400) := sub_nonneg.2 h1
  have e2 : 0 ≤ (139 / 200) - x := sub_nonneg.2 h2
  have e : (19 / 5000000) + (-329 / 2500000) * x ^ 1 + (8537 / 5000000) * x ^ 2 + (-53501 / 7500000) * x ^ 3 + (369077 / 30000000) * x ^ 4 + (-1 / 120) * x ^ 5 + (1 / 720) * x ^ 6 + (-1 / 5040) * x ^ 7 + (1 / 40320) * x ^ 8 = (116456257620673075681 / 5618739861975086017920) * (x - (139 / 400)) ^ 0 * ((139 / 200) - x) ^ 8 + (39936850761314580281 / 351171241373442876120) * (x - (139 / 400)) ^ 1 * ((139 / 200) - x) ^ 7 + (10008956790274347281 / 50167320196206125160) * (x - (139 / 400)) ^ 2 * ((139 / 200) - x) ^ 6 + (2032224235238546281 / 12541830049051531290) * (x - (139 / 400)) ^ 3 * ((139 / 200) - x) ^ 5 + (1766058735921209921 / 5016732019620612516) * (x - (139 / 400)) ^ 4 * ((139 / 200) - x) ^ 4 + (5130488323151827762 / 6270915024525765645) * (x - (139 / 400)) ^ 5 * ((139 / 200) - x) ^ 3 + (4928829316342913762 / 6270915024525765645) * (x - (139 / 400)) ^ 6 * ((139 / 200) - x) ^ 2 + (12375928112252325448 / 43896405171680359515) * (x - (139 / 400)) ^ 7 * ((139 / 200) - x) ^ 1 + (772855385476900162 / 43896405171680359515) * (x - (139 / 400)) ^ 8 * ((139 / 200) - x) ^ 0 := by ring
  rw [e]; positivity

theorem expPoly_up (x : ℝ) (h1 : (0) ≤ x) (h2 : x ≤ (139 / 200)) : 0 ≤ (19 / 5000000) + (-329 / 2500000) * x ^ 1 + (8537 / 5000000) * x ^ 2 + (-53501 / 7500000) * x ^ 3 + (369077 / 30000000) * x ^ 4 + (-1 / 120) * x ^ 5 + (1 / 720) * x ^ 6 + (-1 / 5040) * x ^ 7 + (1 / 40320) * x ^ 8 := by
  rcases le_total x (139 / 1600) with h3 | g1
  · exact expPoly_up_0 x h1 h3
  rcases le_total x (139 / 800) with h4 | g2
  · exact expPoly_up_1 x g1 h4
  rcases le_total x (139 / 400) with h5 | g3
  · exact expPoly_up_2 x g2 h5
  exact expPoly_up_3 x g3 h2

theorem expPoly_lo_0 (x : ℝ) (h1 : (0) ≤ x) (h2 : x ≤ (139 / 400)) : 0 ≤ (19 / 5000000) + (329 / 2500000) * x ^ 1 + (-8537 / 5000000) * x ^ 2 + (53501 / 7500000) * x ^ 3 + (-369077 / 30000000) * x ^ 4 + (1 / 120) * x ^ 5 + (-1 / 720) * x ^ 6 + (1 / 5040) * x ^ 7 + (-1 / 40320) * x ^ 8 := by
  have e1 : 0 ≤ x - (0) := sub_nonneg.2 h1
  have e2 : 0 ≤ (139 / 400) - x := sub_nonneg.2 h2
  have e : (19 / 5000000) + (329 / 2500000) * x ^ 1 + (-8537 / 5000000) * x ^ 2 + (53501 / 7500000) * x ^ 3 + (-369077 / 30000000) * x ^ 4 + (1 / 120) * x ^ 5 + (-1 / 720) * x ^ 6 + (1 / 5040) * x ^ 7 + (-1 / 40320) * x ^ 8 = (2490368000000000 / 139353667211683681) * (x - (0)) ^ 0 * ((139 / 400) - x) ^ 8 + (49893212160000000 / 139353667211683681) * (x - (0)) ^ 1 * ((139 / 400) - x) ^ 7 + (144400566681600000 / 139353667211683681) * (x - (0)) ^ 2 * ((139 / 400) - x) ^ 6 + (462846463668224000 / 418061001635051043) * (x - (0)) ^ 3 * ((139 / 400) - x) ^ 5 + (179308133997678080 / 418061001635051043) * (x - (0)) ^ 4 * ((139 / 400) - x) ^ 4 + (15418598922872320 / 418061001635051043) * (x - (0)) ^ 5 * ((139 / 400) - x) ^ 3 + (90357649792043440 / 1254183004905153129) * (x - (0)) ^ 6 * ((139 / 400) - x) ^ 2 + (597305772516037615 / 8779281034336071903) * (x - (0)) ^ 7 * ((139 / 400) - x) ^ 1 + (84367017899326924319 / 5618739861975086017920) * (x - (0)) ^ 8 * ((139 / 400) - x) ^ 0 := by ring
  rw [e]; positivity

theorem expPoly_lo_1 (x : ℝ) (h1 : (139 / 400) ≤ x) (h2 : x ≤ (139 / 200)) : 0 ≤ (19 / 5000000) + (329 / 2500000) * x ^ 1 + (-8537 / 5000000) * x ^ 2 + (53501 / 7500000) * x ^ 3 + (-369077 / 30000000) * x ^ 4 + (1 / 120) * x ^ 5 + (-1 / 720) * x ^ 6 + (1 / 5040) * x ^ 7 + (-1 / 40320) * x ^ 8 := by
  have e1 : 0 ≤ x - (139 / 400) := sub_nonneg.2 h1
  have e2 : 0 ≤ (139 / 200) - x := sub_nonneg.2 h2
  have e : (19 / 5000000) + (329 / 2500000) * x ^ 1 + (-8537 / 5000000) * x ^ 2 + (53501 / 7500000) * x ^ 3 + (-369077 / 30000000) * x ^ 4 + (1 / 120) * x ^ 5 + (-1 / 720) * x ^ 6 + (1 / 5040) * x ^ 7 + (-1 / 40320) * x ^ 8 = (84367017899326924319 / 5618739861975086017920) * (x - (139 / 400)) ^ 0 * ((139 / 200) - x) ^ 8 + (60474786998685419719 / 351171241373442876120) * (x - (139 / 400)) ^ 1 * ((139 / 200) - x) ^ 7 + (40196862089725652719 / 50167320196206125160) * (x - (139 / 400)) ^ 2 * ((139 / 200) - x) ^ 6 + (23070685204761453719 / 12541830049051531290) * (x - (139 / 400)) ^ 3 * ((139 / 200) - x) ^ 5 + (10785395984078790079 / 5016732019620612516) * (x - (139 / 400)) ^ 4 * ((139 / 200) - x) ^ 4 + (7420966396848172238 / 6270915024525765645) * (x - (139 / 400)) ^ 5 * ((139 / 200) - x) ^ 3 + (1346898043657086238 / 6270915024525765645) * (x - (139 / 400)) ^ 6 * ((139 / 200) - x) ^ 2 + (175526607747674552 / 43896405171680359515) * (x - (139 / 400)) ^ 7 * ((139 / 200) - x) ^ 1 + (796076454523099838 / 43896405171680359515) * (x - (139 / 400)) ^ 8 * ((139 / 200) - x) ^ 0 := by ring
  rw [e]; positivity

theorem expPoly_lo (x : ℝ) (h1 : (0) ≤ x) (h2 : x ≤ (139 / 200)) : 0 ≤ (19 / 5000000) + (329 / 2500000) * x ^ 1 + (-8537 / 5000000) * x ^ 2 + (53501 / 7500000) * x ^ 3 + (-369077 / 30000000) * x ^ 4 + (1 / 120) * x ^ 5 + (-1 / 720) * x ^ 6 + (1 / 5040) * x ^ 7 + (-1 / 40320) * x ^ 8 := by
  rcases le_total x (139 / 400) with h3 | g1
  · exact expPoly_lo_0 x h1 h3
  exact expPoly_lo_1 x g1 h2

theorem logDer_up_0 (x : ℝ) (h1 : (1) ≤ x) (h2 : x ≤ (9 / 8)) : 0 ≤ (-499999171 / 500000000) + (1414213641 / 250000000) * x ^ 1 + (-3469670267 / 250000000) * x ^ 2 + (4822369437 / 250000000) * x ^ 3 + (-3322563811 / 200000000) * x ^ 4 + (1815914571 / 200000000) * x ^ 5 + (-384467013 / 125000000) * x ^ 6 + (73817667 / 125000000) * x ^ 7 + (-24605889 / 500000000) * x ^ 8 := by
  have e1 : 0 ≤ x - (1) := sub_nonneg.2 h1
  have e2 : 0 ≤ (9 / 8) - x := sub_nonneg.2 h2
  have e : (-499999171 / 500000000) + (1414213641 / 250000000) * x ^ 1 + (-3469670267 / 250000000) * x ^ 2 + (4822369437 / 250000000) * x ^ 3 + (-3322563811 / 200000000) * x ^ 4 + (1815914571 / 200000000) * x ^ 5 + (-384467013 / 125000000) * x ^ 6 + (73817667 / 125000000) * x ^ 7 + (-24605889 / 500000000) * x ^ 8 = (5111808 / 1953125) * (x - (1)) ^ 0 * ((9 / 8) - x) ^ 8 + (165654528 / 390625) * (x - (1)) ^ 1 * ((9 / 8) - x) ^ 7 + (3587889152 / 1953125) * (x - (1)) ^ 2 * ((9 / 8) - x) ^ 6 + (1297352576 / 390625) * (x - (1)) ^ 3 * ((9 / 8) - x) ^ 5 + (1246440128 / 390625) * (x - (1)) ^ 4 * ((9 / 8) - x) ^ 4 + (3386340367 / 1953125) * (x - (1)) ^ 5 * ((9 / 8) - x) ^ 3 + (205143806 / 390625) * (x - (1)) ^ 6 * ((9 / 8) - x) ^ 2 + (1286414009 / 15625000) * (x - (1)) ^ 7 * ((9 / 8) - x) ^ 1 + (2857188191 / 500000000) * (x - (1)) ^ 8 * ((9 / 8) - x) ^ 0 := by ring
  rw [e]; positivity

theorem logDer_up_1 (x : ℝ) (h1 : (9 / 8) ≤ x) (h2 : x ≤ (5 / 4)) : 0 ≤ (-499999171 / 500000000) + (1414213641 / 250000000) * x ^ 1 + (-3469670267 / 250000000) * x ^ 2 + (4822369437 / 250000000) * x ^ 3 + (-3322563811 / 200000000) * x ^ 4 + (1815914571 / 200000000) * x ^ 5 + (-384467013 / 125000000) * x ^ 6 + (73817667 / 125000000) * x ^ 7 + (-24605889 / 500000000) * x ^ 8 := by
  have e1 : 0 ≤ x - (9 / 8) := sub_nonneg.2 h1
  have e2 : 0 ≤ (5 / 4) - x := sub_nonneg.2 h2
  have e : (-499999171 / 500000000) + (1414213641 / 250000000) * x ^ 1 + (-3469670267 / 250000000) * x ^ 2 + (4822369437 / 250000000) * x ^ 3 + (-3322563811 / 200000000) * x ^ 4 + (1815914571 / 200000000) * x ^ 5 + (-384467013 / 125000000) * x ^ 6 + (73817667 / 125000000) * x ^ 7 + (-24605889 / 500000000) * x ^ 8 = (2857188191 / 500000000) * (x - (9 / 8)) ^ 0 * ((5 / 4) - x) ^ 8 + (284360173 / 31250000) * (x - (9 / 8)) ^ 1 * ((5 / 4) - x) ^ 7 + (78445913 / 6250000) * (x - (9 / 8)) ^ 2 * ((5 / 4) - x) ^ 6 + (1660080931 / 7812500) * (x - (9 / 8)) ^ 3 * ((5 / 4) - x) ^ 5 + (444046973 / 625000) * (x - (9 / 8)) ^ 4 * ((5 / 4) - x) ^ 4 + (1983609067 / 1953125) * (x - (9 / 8)) ^ 5 * ((5 / 4) - x) ^ 3 + (1447005653 / 1953125) * (x - (9 / 8)) ^ 6 * ((5 / 4) - x) ^ 2 + (532942548 / 1953125) * (x - (9 / 8)) ^ 7 * ((5 / 4) - x) ^ 1 + (78920559 / 1953125) * (x - (9 / 8)) ^ 8 * ((5 / 4) - x) ^ 0 := by ring
  rw [e]; positivity

theorem logDer_up_2 (x : ℝ) (h1 : (5 / 4) ≤ x) (h2 : x ≤ (3 / 2)) : 0 ≤ (-499999171 / 500000000) + (1414213641 / 250000000) * x ^ 1 + (-3469670267 / 250000000) * x ^ 2 + (4822369437 / 250000000) * x ^ 3 + (-3322563811 / 200000000) * x ^ 4 + (1815914571 / 200000000) * x ^ 5 + (-384467013 / 125000000) * x ^ 6 + (73817667 / 125000000) * x ^ 7 + (-24605889 / 500000000) * x ^ 8 := by
  have e1 : 0 ≤ x - (5 / 4) := sub_nonneg.2 h1
  have e2 : 0 ≤ (3 / 2) - x := sub_nonneg.2 h2
  have e : (-499999171 / 500000000) + (1414213641 / 250000000) * x ^ 1 + (-3469670267 / 250000000) * x ^ 2 + (4822369437 / 250000000) * x ^ 3 + (-3322563811 / 200000000) * x ^ 4 + (1815914571 / 200000000) * x ^ 5 + (-384467013 / 125000000) * x ^ 6 + (73817667 / 125000000) * x ^ 7 + (-24605889 / 500000000) * x ^ 8 = (78920559 / 500000000) * (x - (5 / 4)) ^ 0 * ((3 / 2) - x) ^ 8 + (2588151 / 1562500) * (x - (5 / 4)) ^ 1 * ((3 / 2) - x) ^ 7 + (205776029 / 31250000) * (x - (5 / 4)) ^ 2 * ((3 / 2) - x) ^ 6 + (193473017 / 15625000) * (x - (5 / 4)) ^ 3 * ((3 / 2) - x) ^ 5 + (36065419 / 3125000) * (x - (5 / 4)) ^ 4 * ((3 / 2) - x) ^ 4 + (10343509 / 1953125) * (x - (5 / 4)) ^ 5 * ((3 / 2) - x) ^ 3 + (2096143 / 1953125) * (x - (5 / 4)) ^ 6 * ((3 / 2) - x) ^ 2 + (159562 / 1953125) * (x - (5 / 4)) ^ 7 * ((3 / 2) - x) ^ 1 + (3991 / 390625) * (x - (5 / 4)) ^ 8 * ((3 / 2) - x) ^ 0 := by ring
  rw [e]; positivity

theorem logDer_up_3 (x : ℝ) (h1 : (3 / 2) ≤ x) (h2 : x ≤ (7 / 4)) : 0 ≤ (-499999171 / 500000000) + (1414213641 / 250000000) * x ^ 1 + (-3469670267 / 250000000) * x ^ 2 + (4822369437 / 250000000) * x ^ 3 + (-3322563811 / 200000000) * x ^ 4 + (1815914571 / 200000000) * x ^ 5 + (-384467013 / 125000000) * x ^ 6 + (73817667 / 125000000) * x ^ 7 + (-24605889 / 500000000) * x ^ 8 := by
  have e1 : 0 ≤ x - (3 / 2) := sub_nonneg.2 h1
  have e2 : 0 ≤ (7 / 4) - x := sub_nonneg.2 h2
  have e : (-499999171 / 500000000) + (1414213641 / 250000000) * x ^ 1 + (-3469670267 / 250000000) * x ^ 2 + (4822369437 / 250000000) * x ^ 3 + (-3322563811 / 200000000) * x ^ 4 + (1815914571 / 200000000) * x ^ 5 + (-384467013 / 125000000) * x ^ 6 + (73817667 / 125000000) * x ^ 7 + (-24605889 / 500000000) * x ^ 8 = (3991 / 390625) * (x - (3 / 2)) ^ 0 * ((7 / 4) - x) ^ 8 + (159718 / 1953125) * (x - (3 / 2)) ^ 1 * ((7 / 4) - x) ^ 7 + (419447 / 390625) * (x - (3 / 2)) ^ 2 * ((7 / 4) - x) ^ 6 + (10346839 / 1953125) * (x - (3 / 2)) ^ 3 * ((7 / 4) - x) ^ 5 + (36074587 / 3125000) * (x - (3 / 2)) ^ 4 * ((7 / 4) - x) ^ 4 + (193521023 / 15625000) * (x - (3 / 2)) ^ 5 * ((7 / 4) - x) ^ 3 + (205837121 / 31250000) * (x - (3 / 2)) ^ 6 * ((7 / 4) - x) ^ 2 + (3236553 / 1953125) * (x - (3 / 2)) ^ 7 * ((7 / 4) - x) ^ 1 + (78974511 / 500000000) * (x - (3 / 2)) ^ 8 * ((7 / 4) - x) ^ 0 := by ring
  rw [e]; positivity

theorem logDer_up_4 (x : ℝ) (h1 : (7 / 4) ≤ x) (h2 : x ≤ (15 / 8)) : 0 ≤ (-499999171 / 500000000) + (1414213641 / 250000000) * x ^ 1 + (-3469670267 / 250000000) * x ^ 2 + (4822369437 / 250000000) * x ^ 3 + (-3322563811 / 200000000) * x ^ 4 + (1815914571 / 200000000) * x ^ 5 + (-384467013 / 125000000) * x ^ 6 + (73817667 / 125000000) * x ^ 7 + (-24605889 / 500000000) * x ^ 8 := by
  have e1 : 0 ≤ x - (7 / 4) := sub_nonneg.2 h1
  have e2 : 0 ≤ (15 / 8) - x := sub_nonneg.2 h2
  have e : (-499999171 / 500000000) + (1414213641 / 250000000) * x ^ 1 + (-3469670267 / 250000000) * x ^ 2 + (4822369437 / 250000000) * x ^ 3 + (-3322563811 / 200000000) * x ^ 4 + (1815914571 / 200000000) * x ^ 5 + (-384467013 / 125000000) * x ^ 6 + (73817667 / 125000000) * x ^ 7 + (-24605889 / 500000000) * x ^ 8 = (78974511 / 1953125) * (x - (7 / 4)) ^ 0 * ((15 / 8) - x) ^ 8 + (533415348 / 1953125) * (x - (7 / 4)) ^ 1 * ((15 / 8) - x) ^ 7 + (289763089 / 390625) * (x - (7 / 4)) ^ 2 * ((15 / 8) - x) ^ 6 + (1987562299 / 1953125) * (x - (7 / 4)) ^ 3 * ((15 / 8) - x) ^ 5 + (445771997 / 625000) * (x - (7 / 4)) ^ 4 * ((15 / 8) - x) ^ 4 + (1678879483 / 7812500) * (x - (7 / 4)) ^ 5 * ((15 / 8) - x) ^ 3 + (433162333 / 31250000) * (x - (7 / 4)) ^ 6 * ((15 / 8) - x) ^ 2 + (297081613 / 31250000) * (x - (7 / 4)) ^ 7 * ((15 / 8) - x) ^ 1 + (2884840799 / 500000000) * (x - (7 / 4)) ^ 8 * ((15 / 8) - x) ^ 0 := by ring
  rw [e]; positivity

theorem logDer_up_5 (x : ℝ) (h1 : (15 / 8) ≤ x) (h2 : x ≤ (2)) : 0 ≤ (-499999171 / 500000000) + (1414213641 / 250000000) * x ^ 1 + (-3469670267 / 250000000) * x ^ 2 + (4822369437 / 250000000) * x ^ 3 + (-3322563811 / 200000000) * x ^ 4 + (1815914571 / 200000000) * x ^ 5 + (-384467013 / 125000000) * x ^ 6 + (73817667 / 125000000) * x ^ 7 + (-24605889 / 500000000) * x ^ 8 := by
  have e1 : 0 ≤ x - (15 / 8) := sub_nonneg.2 h1
  have e2 : 0 ≤ (2) - x := sub_nonneg.2 h2
  have e : (-499999171 / 500000000) + (1414213641 / 250000000) * x ^ 1 + (-3469670267 / 250000000) * x ^ 2 + (4822369437 / 250000000) * x ^ 3 + (-3322563811 / 200000000) * x ^ 4 + (1815914571 / 200000000) * x ^ 5 + (-384467013 / 125000000) * x ^ 6 + (73817667 / 125000000) * x ^ 7 + (-24605889 / 500000000) * x ^ 8 = (2884840799 / 500000000) * (x - (15 / 8)) ^ 0 * ((2) - x) ^ 8 + (1293879593 / 15625000) * (x - (15 / 8)) ^ 1 * ((2) - x) ^ 7 + (1029244084 / 1953125) * (x - (15 / 8)) ^ 2 * ((2) - x) ^ 6 + (3393944809 / 1953125) * (x - (15 / 8)) ^ 3 * ((2) - x) ^ 5 + (249697912 / 78125) * (x - (15 / 8)) ^ 4 * ((2) - x) ^ 4 + (6495595264 / 1953125) * (x - (15 / 8)) ^ 5 * ((2) - x) ^ 3 + (3592644608 / 1953125) * (x - (15 / 8)) ^ 6 * ((2) - x) ^ 2 + (829734912 / 1953125) * (x - (15 / 8)) ^ 7 * ((2) - x) ^ 1 + (5308416 / 1953125) * (x - (15 / 8)) ^ 8 * ((2) - x) ^ 0 := by ring
  rw [e]; positivity

theorem logDer_up (x : ℝ) (h1 : (1) ≤ x) (h2 : x ≤ (2)) : 0 ≤ (-499999171 / 500000000) + (1414213641 / 250000000) * x ^ 1 + (-3469670267 / 250000000) * x ^ 2 + (4822369437 / 250000000) * x ^ 3 + (-3322563811 / 200000000) * x ^ 4 + (1815914571 / 200000000) * x ^ 5 + (-384467013 / 125000000) * x ^ 6 + (73817667 / 125000000) * x ^ 7 + (-24605889 / 500000000) * x ^ 8 := by
  rcases le_total x (9 / 8) with h3 | g1
  · exact logDer_up_0 x h1 h3
  rcases le_total x (5 / 4) with h4 | g2
  · exact logDer_up_1 x g1 h4
  rcases le_total x (3 / 2) with h5 | g3
  · exact logDer_up_2 x g2 h5
  rcases le_total x (7 / 4) with h6 | g4
  · exact logDer_up_3 x g3 h6
  rcases le_total x (15 / 8) with h7 | g5
  · exact logDer_up_4 x g4 h7
  exact logDer_up_5 x g5 h2

theorem logDer_lo_0 (x : ℝ) (h1 : (1) ≤ x) (h2 : x ≤ (33 / 32)) : 0 ≤ (500000829 / 500000000) + (-1414213641 / 250000000) * x ^ 1 + (3469670267 / 250000000) * x ^ 2 + (-4822369437 / 250000000) * x ^ 3 + (3322563811 / 200000000) * x ^ 4 + (-1815914571 / 200000000) * x ^ 5 + (384467013 / 125000000) * x ^ 6 + (-73817667 / 125000000) * x ^ 7 + (24605889 / 500000000) * x ^ 8 := by
  have e1 : 0 ≤ x - (1) := sub_nonneg.2 h1
  have e2 : 0 ≤ (33 / 32) - x := sub_nonneg.2 h2
  have e : (500000829 / 500000000) + (-1414213641 / 250000000) * x ^ 1 + (3469670267 / 250000000) * x ^ 2 + (-4822369437 / 250000000) * x ^ 3 + (3322563811 / 200000000) * x ^ 4 + (-1815914571 / 200000000) * x ^ 5 + (384467013 / 125000000) * x ^ 6 + (-73817667 / 125000000) * x ^ 7 + (24605889 / 500000000) * x ^ 8 = (1357209665536 / 390625) * (x - (1)) ^ 0 * ((33 / 32) - x) ^ 8 + (41387982585856 / 1953125) * (x - (1)) ^ 1 * ((33 / 32) - x) ^ 7 + (108172501057536 / 1953125) * (x - (1)) ^ 2 * ((33 / 32) - x) ^ 6 + (31557916164096 / 390625) * (x - (1)) ^ 3 * ((33 / 32) - x) ^ 5 + (28035246768128 / 390625) * (x - (1)) ^ 4 * ((33 / 32) - x) ^ 4 + (77681141611584 / 1953125) * (x - (1)) ^ 5 * ((33 / 32) - x) ^ 3 + (5286647002736 / 390625) * (x - (1)) ^ 6 * ((33 / 32) - x) ^ 2 + (415006321239 / 156250) * (x - (1)) ^ 7 * ((33 / 32) - x) ^ 1 + (122436067836993 / 500000000) * (x - (1)) ^ 8 * ((33 / 32) - x) ^ 0 := by ring
  rw [e]; positivity

theorem logDer_lo_1 (x : ℝ) (h1 : (33 / 32) ≤ x) (h2 : x ≤ (17 / 16)) : 0 ≤ (500000829 / 500000000) + (-1414213641 / 250000000) * x ^ 1 + (3469670267 / 250000000) * x ^ 2 + (-4822369437 / 250000000) * x ^ 3 + (3322563811 / 200000000) * x ^ 4 + (-1815914571 / 200000000) * x ^ 5 + (384467013 / 125000000) * x ^ 6 + (-73817667 / 125000000) * x ^ 7 + (24605889 / 500000000) * x ^ 8 := by
  have e1 : 0 ≤ x - (33 / 32) := sub_nonneg.2 h1
  have e2 : 0 ≤ (17 / 16) - x := sub_nonneg.2 h2
  have e : (500000829 / 500000000) + (-1414213641 / 250000000) * x ^ 1 + (3469670267 / 250000000) * x ^ 2 + (-4822369437 / 250000000) * x ^ 3 + (3322563811 / 200000000) * x ^ 4 + (-1815914571 / 200000000) * x ^ 5 + (384467013 / 125000000) * x ^ 6 + (-73817667 / 125000000) * x ^ 7 + (24605889 / 500000000) * x ^ 8 = (122436067836993 / 500000000) * (x - (33 / 32)) ^ 0 * ((17 / 16) - x) ^ 8 + (39434803589193 / 31250000) * (x - (33 / 32)) ^ 1 * ((17 / 16) - x) ^ 7 + (117966535608631 / 31250000) * (x - (33 / 32)) ^ 2 * ((17 / 16) - x) ^ 6 + (14419327973091 / 1562500) * (x - (33 / 32)) ^ 3 * ((17 / 16) - x) ^ 5 + (51991345593511 / 3125000) * (x - (33 / 32)) ^ 4 * ((17 / 16) - x) ^ 4 + (37700453816031 / 1953125) * (x - (33 / 32)) ^ 5 * ((17 / 16) - x) ^ 3 + (26149079117847 / 1953125) * (x - (33 / 32)) ^ 6 * ((17 / 16) - x) ^ 2 + (1973040161684 / 390625) * (x - (33 / 32)) ^ 7 * ((17 / 16) - x) ^ 1 + (1559645431937 / 1953125) * (x - (33 / 32)) ^ 8 * ((17 / 16) - x) ^ 0 := by ring
  rw [e]; positivity

theorem logDer_lo_2 (x : ℝ) (h1 : (17 / 16) ≤ x) (h2 : x ≤ (9 / 8)) : 0 ≤ (500000829 / 500000000) + (-1414213641 / 250000000) * x ^ 1 + (3469670267 / 250000000) * x ^ 2 + (-4822369437 / 250000000) * x ^ 3 + (3322563811 / 200000000) * x ^ 4 + (-1815914571 / 200000000) * x ^ 5 + (384467013 / 125000000) * x ^ 6 + (-73817667 / 125000000) * x ^ 7 + (24605889 / 500000000) * x ^ 8 := by
  have e1 : 0 ≤ x - (17 / 16) := sub_nonneg.2 h1
  have e2 : 0 ≤ (9 / 8) - x := sub_nonneg.2 h2
  have e : (500000829 / 500000000) + (-1414213641 / 250000000) * x ^ 1 + (3469670267 / 250000000) * x ^ 2 + (-4822369437 / 250000000) * x ^ 3 + (3322563811 / 200000000) * x ^ 4 + (-1815914571 / 200000000) * x ^ 5 + (384467013 / 125000000) * x ^ 6 + (-73817667 / 125000000) * x ^ 7 + (24605889 / 500000000) * x ^ 8 = (1559645431937 / 500000000) * (x - (17 / 16)) ^ 0 * ((9 / 8) - x) ^ 8 + (1106318046853 / 31250000) * (x - (17 / 16)) ^ 1 * ((9 / 8) - x) ^ 7 + (5205533210367 / 31250000) * (x - (17 / 16)) ^ 2 * ((9 / 8) - x) ^ 6 + (657087667071 / 1562500) * (x - (17 / 16)) ^ 3 * ((9 / 8) - x) ^ 5 + (1964511205111 / 3125000) * (x - (17 / 16)) ^ 4 * ((9 / 8) - x) ^ 4 + (1124370911571 / 1953125) * (x - (17 / 16)) ^ 5 * ((9 / 8) - x) ^ 3 + (621179955823 / 1953125) * (x - (17 / 16)) ^ 6 * ((9 / 8) - x) ^ 2 + (190521616116 / 1953125) * (x - (17 / 16)) ^ 7 * ((9 / 8) - x) ^ 1 + (24959435937 / 1953125) * (x - (17 / 16)) ^ 8 * ((9 / 8) - x) ^ 0 := by ring
  rw [e]; positivity

theorem logDer_lo_3 (x : ℝ) (h1 : (9 / 8) ≤ x) (h2 : x ≤ (5 / 4)) : 0 ≤ (500000829 / 500000000) + (-1414213641 / 250000000) * x ^ 1 + (3469670267 / 250000000) * x ^ 2 + (-4822369437 / 250000000) * x ^ 3 + (3322563811 / 200000000) * x ^ 4 + (-1815914571 / 200000000) * x ^ 5 + (384467013 / 125000000) * x ^ 6 + (-73817667 / 125000000) * x ^ 7 + (24605889 / 500000000) * x ^ 8 := by
  have e1 : 0 ≤ x - (9 / 8) := sub_nonneg.2 h1
  have e2 : 0 ≤ (5 / 4) - x := sub_nonneg.2 h2
  have e : (500000829 / 500000000) + (-1414213641 / 250000000) * x ^ 1 + (3469670267 / 250000000) * x ^ 2 + (-4822369437 / 250000000) * x ^ 3 + (3322563811 / 200000000) * x ^ 4 + (-1815914571 / 200000000) * x ^ 5 + (384467013 / 125000000) * x ^ 6 + (-73817667 / 125000000) * x ^ 7 + (24605889 / 500000000) * x ^ 8 = (24959435937 / 500000000) * (x - (9 / 8)) ^ 0 * ((5 / 4) - x) ^ 8 + (13623951891 / 31250000) * (x - (9 / 8)) ^ 1 * ((5 / 4) - x) ^ 7 + (48286862659 / 31250000) * (x - (9 / 8)) ^ 2 * ((5 / 4) - x) ^ 6 + (22679465181 / 7812500) * (x - (9 / 8)) ^ 3 * ((5 / 4) - x) ^ 5 + (9949538191 / 3125000) * (x - (9 / 8)) ^ 4 * ((5 / 4) - x) ^ 4 + (4101277461 / 1953125) * (x - (9 / 8)) ^ 5 * ((5 / 4) - x) ^ 3 + (1595437611 / 1953125) * (x - (9 / 8)) ^ 6 * ((5 / 4) - x) ^ 2 + (336326956 / 1953125) * (x - (9 / 8)) ^ 7 * ((5 / 4) - x) ^ 1 + (29738129 / 1953125) * (x - (9 / 8)) ^ 8 * ((5 / 4) - x) ^ 0 := by ring
  rw [e]; positivity

theorem logDer_lo_4 (x : ℝ) (h1 : (5 / 4) ≤ x) (h2 : x ≤ (11 / 8)) : 0 ≤ (500000829 / 500000000) + (-1414213641 / 250000000) * x ^ 1 + (3469670267 / 250000000) * x ^ 2 + (-4822369437 / 250000000) * x ^ 3 + (3322563811 / 200000000) * x ^ 4 + (-1815914571 / 200000000) * x ^ 5 + (384467013 / 125000000) * x ^ 6 + (-73817667 / 125000000) * x ^ 7 + (24605889 / 500000000) * x ^ 8 := by
  have e1 : 0 ≤ x - (5 / 4) := sub_nonneg.2 h1
  have e2 : 0 ≤ (11 / 8) - x := sub_nonneg.2 h2
  have e : (500000829 / 500000000) + (-1414213641 / 250000000) * x ^ 1 + (3469670267 / 250000000) * x ^ 2 + (-4822369437 / 250000000) * x ^ 3 + (3322563811 / 200000000) * x ^ 4 + (-1815914571 / 200000000) * x ^ 5 + (384467013 / 125000000) * x ^ 6 + (-73817667 / 125000000) * x ^ 7 + (24605889 / 500000000) * x ^ 8 = (29738129 / 1953125) * (x - (5 / 4)) ^ 0 * ((11 / 8) - x) ^ 8 + (139483108 / 1953125) * (x - (5 / 4)) ^ 1 * ((11 / 8) - x) ^ 7 + (8701227 / 78125) * (x - (5 / 4)) ^ 2 * ((11 / 8) - x) ^ 6 + (115191359 / 1953125) * (x - (5 / 4)) ^ 3 * ((11 / 8) - x) ^ 5 + (107360351 / 3125000) * (x - (5 / 4)) ^ 4 * ((11 / 8) - x) ^ 4 + (977503151 / 7812500) * (x - (5 / 4)) ^ 5 * ((11 / 8) - x) ^ 3 + (5178344091 / 31250000) * (x - (5 / 4)) ^ 6 * ((11 / 8) - x) ^ 2 + (2748467017 / 31250000) * (x - (5 / 4)) ^ 7 * ((11 / 8) - x) ^ 1 + (8424967937 / 500000000) * (x - (5 / 4)) ^ 8 * ((11 / 8) - x) ^ 0 := by ring
  rw [e]; positivity

theorem logDer_lo_5 (x : ℝ) (h1 : (11 / 8) ≤ x) (h2 : x ≤ (3 / 2)) : 0 ≤ (500000829 / 500000000) + (-1414213641 / 250000000) * x ^ 1 + (3469670267 / 250000000) * x ^ 2 + (-4822369437 / 250000000) * x ^ 3 + (3322563811 / 200000000) * x ^ 4 + (-1815914571 / 200000000) * x ^ 5 + (384467013 / 125000000) * x ^ 6 + (-73817667 / 125000000) * x ^ 7 + (24605889 / 500000000) * x ^ 8 := by
  have e1 : 0 ≤ x - (11 / 8) := sub_nonneg.2 h1
  have e2 : 0 ≤ (3 / 2) - x := sub_nonneg.2 h2
  have e : (500000829 / 500000000) + (-1414213641 / 250000000) * x ^ 1 + (3469670267 / 250000000) * x ^ 2 + (-4822369437 / 250000000) * x ^ 3 + (3322563811 / 200000000) * x ^ 4 + (-1815914571 / 200000000) * x ^ 5 + (384467013 / 125000000) * x ^ 6 + (-73817667 / 125000000) * x ^ 7 + (24605889 / 500000000) * x ^ 8 = (8424967937 / 500000000) * (x - (11 / 8)) ^ 0 * ((3 / 2) - x) ^ 8 + (141912523 / 781250) * (x - (11 / 8)) ^ 1 * ((3 / 2) - x) ^ 7 + (6418645353 / 7812500) * (x - (11 / 8)) ^ 2 * ((3 / 2) - x) ^ 6 + (3953624331 / 1953125) * (x - (11 / 8)) ^ 3 * ((3 / 2) - x) ^ 5 + (1160638922 / 390625) * (x - (11 / 8)) ^ 4 * ((3 / 2) - x) ^ 4 + (1041689952 / 390625) * (x - (11 / 8)) ^ 5 * ((3 / 2) - x) ^ 3 + (2801046976 / 1953125) * (x - (11 / 8)) ^ 6 * ((3 / 2) - x) ^ 2 + (828411648 / 1953125) * (x - (11 / 8)) ^ 7 * ((3 / 2) - x) ^ 1 + (103550208 / 1953125) * (x - (11 / 8)) ^ 8 * ((3 / 2) - x) ^ 0 := by ring
  rw [e]; positivity

theorem logDer_lo_6 (x : ℝ) (h1 : (3 / 2) ≤ x) (h2 : x ≤ (13 / 8)) : 0 ≤ (500000829 / 500000000) + (-1414213641 / 250000000) * x ^ 1 + (3469670267 / 250000000) * x ^ 2 + (-4822369437 / 250000000) * x ^ 3 + (3322563811 / 200000000) * x ^ 4 + (-1815914571 / 200000000) * x ^ 5 + (384467013 / 125000000) * x ^ 6 + (-73817667 / 125000000) * x ^ 7 + (24605889 / 500000000) * x ^ 8 := by
  have e1 : 0 ≤ x - (3 / 2) := sub_nonneg.2 h1
  have e2 : 0 ≤ (13 / 8) - x := sub_nonneg.2 h2
  have e : (500000829 / 500000000) + (-1414213641 / 250000000) * x ^ 1 + (3469670267 / 250000000) * x ^ 2 + (-4822369437 / 250000000) * x ^ 3 + (3322563811 / 200000000) * x ^ 4 + (-1815914571 / 200000000) * x ^ 5 + (384467013 / 125000000) * x ^ 6 + (-73817667 / 125000000) * x ^ 7 + (24605889 / 500000000) * x ^ 8 = (103550208 / 1953125) * (x - (3 / 2)) ^ 0 * ((13 / 8) - x) ^ 8 + (165678336 / 390625) * (x - (3 / 2)) ^ 1 * ((13 / 8) - x) ^ 7 + (112036288 / 78125) * (x - (3 / 2)) ^ 2 * ((13 / 8) - x) ^ 6 + (5208028704 / 1953125) * (x - (3 / 2)) ^ 3 * ((13 / 8) - x) ^ 5 + (1160497418 / 390625) * (x - (3 / 2)) ^ 4 * ((13 / 8) - x) ^ 4 + (790581633 / 390625) * (x - (3 / 2)) ^ 5 * ((13 / 8) - x) ^ 3 + (6416898849 / 7812500) * (x - (3 / 2)) ^ 6 * ((13 / 8) - x) ^ 2 + (709265747 / 3906250) * (x - (3 / 2)) ^ 7 * ((13 / 8) - x) ^ 1 + (336776489 / 20000000) * (x - (3 / 2)) ^ 8 * ((13 / 8) - x) ^ 0 := by ring
  rw [e]; positivity

theorem logDer_lo_7 (x : ℝ) (h1 : (13 / 8) ≤ x) (h2 : x ≤ (7 / 4)) : 0 ≤ (500000829 / 500000000) + (-1414213641 / 250000000) * x ^ 1 + (3469670267 / 250000000) * x ^ 2 + (-4822369437 / 250000000) * x ^ 3 + (3322563811 / 200000000) * x ^ 4 + (-1815914571 / 200000000) * x ^ 5 + (384467013 / 125000000) * x ^ 6 + (-73817667 / 125000000) * x ^ 7 + (24605889 / 500000000) * x ^ 8 := by
  have e1 : 0 ≤ x - (13 / 8) := sub_nonneg.2 h1
  have e2 : 0 ≤ (7 / 4) - x := sub_nonneg.2 h2
  have e : (500000829 / 500000000) + (-1414213641 / 250000000) * x ^ 1 + (3469670267 / 250000000) * x ^ 2 + (-4822369437 / 250000000) * x ^ 3 + (3322563811 / 200000000) * x ^ 4 + (-1815914571 / 200000000) * x ^ 5 + (384467013 / 125000000) * x ^ 6 + (-73817667 / 125000000) * x ^ 7 + (24605889 / 500000000) * x ^ 8 = (336776489 / 20000000) * (x - (13 / 8)) ^ 0 * ((7 / 4) - x) ^ 8 + (2745286249 / 31250000) * (x - (13 / 8)) ^ 1 * ((7 / 4) - x) ^ 7 + (5165717307 / 31250000) * (x - (13 / 8)) ^ 2 * ((7 / 4) - x) ^ 6 + (970393607 / 7812500) * (x - (13 / 8)) ^ 3 * ((7 / 4) - x) ^ 5 + (103379327 / 3125000) * (x - (13 / 8)) ^ 4 * ((7 / 4) - x) ^ 4 + (112971791 / 1953125) * (x - (13 / 8)) ^ 5 * ((7 / 4) - x) ^ 3 + (216297459 / 1953125) * (x - (13 / 8)) ^ 6 * ((7 / 4) - x) ^ 2 + (139092676 / 1953125) * (x - (13 / 8)) ^ 7 * ((7 / 4) - x) ^ 1 + (29684177 / 1953125) * (x - (13 / 8)) ^ 8 * ((7 / 4) - x) ^ 0 := by ring
  rw [e]; positivity

theorem logDer_lo_8 (x : ℝ) (h1 : (7 / 4) ≤ x) (h2 : x ≤ (15 / 8)) : 0 ≤ (500000829 / 500000000) + (-1414213641 / 250000000) * x ^ 1 + (3469670267 / 250000000) * x ^ 2 + (-4822369437 / 250000000) * x ^ 3 + (3322563811 / 200000000) * x ^ 4 + (-1815914571 / 200000000) * x ^ 5 + (384467013 / 125000000) * x ^ 6 + (-73817667 / 125000000) * x ^ 7 + (24605889 / 500000000) * x ^ 8 := by
  have e1 : 0 ≤ x - (7 / 4) := sub_nonneg.2 h1
  have e2 : 0 ≤ (15 / 8) - x := sub_nonneg.2 h2
  have e : (500000829 / 500000000) + (-1414213641 / 250000000) * x ^ 1 + (3469670267 / 250000000) * x ^ 2 + (-4822369437 / 250000000) * x ^ 3 + (3322563811 / 200000000) * x ^ 4 + (-1815914571 / 200000000) * x ^ 5 + (384467013 / 125000000) * x ^ 6 + (-73817667 / 125000000) * x ^ 7 + (24605889 / 500000000) * x ^ 8 = (29684177 / 1953125) * (x - (7 / 4)) ^ 0 * ((15 / 8) - x) ^ 8 + (335854156 / 1953125) * (x - (7 / 4)) ^ 1 * ((15 / 8) - x) ^ 7 + (1593627819 / 1953125) * (x - (7 / 4)) ^ 2 * ((15 / 8) - x) ^ 6 + (4097324229 / 1953125) * (x - (7 / 4)) ^ 3 * ((15 / 8) - x) ^ 5 + (9940913071 / 3125000) * (x - (7 / 4)) ^ 4 * ((15 / 8) - x) ^ 4 + (22660666629 / 7812500) * (x - (7 / 4)) ^ 5 * ((15 / 8) - x) ^ 3 + (48245929891 / 31250000) * (x - (7 / 4)) ^ 6 * ((15 / 8) - x) ^ 2 + (13611230451 / 31250000) * (x - (7 / 4)) ^ 7 * ((15 / 8) - x) ^ 1 + (24931783329 / 500000000) * (x - (7 / 4)) ^ 8 * ((15 / 8) - x) ^ 0 := by ring
  rw [e]; positivity

theorem logDer_lo_9 (x : ℝ) (h1 : (15 / 8) ≤ x) (h2 : x ≤ (31 / 16)) : 0 ≤ (500000829 / 500000000) + (-1414213641 / 250000000) * x ^ 1 + (3469670267 / 250000000) * x ^ 2 + (-4822369437 / 250000000) * x ^ 3 + (3322563811 / 200000000) * x ^ 4 + (-1815914571 / 200000000) * x ^ 5 + (384467013 / 125000000) * x ^ 6 + (-73817667 / 125000000) * x ^ 7 + (24605889 / 500000000) * x ^ 8 := by
  have e1 : 0 ≤ x - (15 / 8) := sub_nonneg.2 h1
  have e2 : 0 ≤ (31 / 16) - x := sub_nonneg.2 h2
  have e : (500000829 / 500000000) + (-1414213641 / 250000000) * x ^ 1 + (3469670267 / 250000000) * x ^ 2 + (-4822369437 / 250000000) * x ^ 3 + (3322563811 / 200000000) * x ^ 4 + (-1815914571 / 200000000) * x ^ 5 + (384467013 / 125000000) * x ^ 6 + (-73817667 / 125000000) * x ^ 7 + (24605889 / 500000000) * x ^ 8 = (24931783329 / 1953125) * (x - (15 / 8)) ^ 0 * ((31 / 16) - x) ^ 8 + (38058311268 / 390625) * (x - (15 / 8)) ^ 1 * ((31 / 16) - x) ^ 7 + (620342711407 / 1953125) * (x - (15 / 8)) ^ 2 * ((31 / 16) - x) ^ 6 + (1122630081747 / 1953125) * (x - (15 / 8)) ^ 3 * ((31 / 16) - x) ^ 5 + (1960892174839 / 3125000) * (x - (15 / 8)) ^ 4 * ((31 / 16) - x) ^ 4 + (3277915856571 / 7812500) * (x - (15 / 8)) ^ 5 * ((31 / 16) - x) ^ 3 + (5189899452927 / 31250000) * (x - (15 / 8)) ^ 6 * ((31 / 16) - x) ^ 2 + (1101677149573 / 31250000) * (x - (15 / 8)) ^ 7 * ((31 / 16) - x) ^ 1 + (310000659277 / 100000000) * (x - (15 / 8)) ^ 8 * ((31 / 16) - x) ^ 0 := by ring
  rw [e]; positivity

theorem logDer_lo_10 (x : ℝ) (h1 : (31 / 16) ≤ x) (h2 : x ≤ (63 / 32)) : 0 ≤ (500000829 / 500000000) + (-1414213641 / 250000000) * x ^ 1 + (3469670267 / 250000000) * x ^ 2 + (-4822369437 / 250000000) * x ^ 3 + (3322563811 / 200000000) * x ^ 4 + (-1815914571 / 200000000) * x ^ 5 + (384467013 / 125000000) * x ^ 6 + (-73817667 / 125000000) * x ^ 7 + (24605889 / 500000000) * x ^ 8 := by
  have e1 : 0 ≤ x - (31 / 16) := sub_nonneg.2 h1
  have e2 : 0 ≤ (63 / 32) - x := sub_nonneg.2 h2
  have e : (500000829 / 500000000) + (-1414213641 / 250000000) * x ^ 1 + (3469670267 / 250000000) * x ^ 2 + (-4822369437 / 250000000) * x ^ 3 + (3322563811 / 200000000) * x ^ 4 + (-1815914571 / 200000000) * x ^ 5 + (384467013 / 125000000) * x ^ 6 + (-73817667 / 125000000) * x ^ 7 + (24605889 / 500000000) * x ^ 8 = (310000659277 / 390625) * (x - (31 / 16)) ^ 0 * ((63 / 32) - x) ^ 8 + (9786622360036 / 1953125) * (x - (31 / 16)) ^ 1 * ((63 / 32) - x) ^ 7 + (25868924919831 / 1953125) * (x - (31 / 16)) ^ 2 * ((63 / 32) - x) ^ 6 + (1485188557239 / 78125) * (x - (31 / 16)) ^ 3 * ((63 / 32) - x) ^ 5 + (50828653294759 / 3125000) * (x - (31 / 16)) ^ 4 * ((63 / 32) - x) ^ 4 + (69728120847471 / 7812500) * (x - (31 / 16)) ^ 5 * ((63 / 32) - x) ^ 3 + (22628357860619 / 6250000) * (x - (31 / 16)) ^ 6 * ((63 / 32) - x) ^ 2 + (7606165581429 / 6250000) * (x - (31 / 16)) ^ 7 * ((63 / 32) - x) ^ 1 + (119576316494913 / 500000000) * (x - (31 / 16)) ^ 8 * ((63 / 32) - x) ^ 0 := by ring
  rw [e]; positivity

theorem logDer_lo_11 (x : ℝ) (h1 : (63 / 32) ≤ x) (h2 : x ≤ (2)) : 0 ≤ (500000829 / 500000000) + (-1414213641 / 250000000) * x ^ 1 + (3469670267 / 250000000) * x ^ 2 + (-4822369437 / 250000000) * x ^ 3 + (3322563811 / 200000000) * x ^ 4 + (-1815914571 / 200000000) * x ^ 5 + (384467013 / 125000000) * x ^ 6 + (-73817667 / 125000000) * x ^ 7 + (24605889 / 500000000) * x ^ 8 := by
  have e1 : 0 ≤ x - (63 / 32) := sub_nonneg.2 h1
  have e2 : 0 ≤ (2) - x := sub_nonneg.2 h2
  have e : (500000829 / 500000000) + (-1414213641 / 250000000) * x ^ 1 + (3469670267 / 250000000) * x ^ 2 + (-4822369437 / 250000000) * x ^ 3 + (3322563811 / 200000000) * x ^ 4 + (-1815914571 / 200000000) * x ^ 5 + (384467013 / 125000000) * x ^ 6 + (-73817667 / 125000000) * x ^ 7 + (24605889 / 500000000) * x ^ 8 = (119576316494913 / 500000000) * (x - (63 / 32)) ^ 0 * ((2) - x) ^ 8 + (10193186073471 / 3906250) * (x - (63 / 32)) ^ 1 * ((2) - x) ^ 7 + (26109025879216 / 1953125) * (x - (63 / 32)) ^ 2 * ((2) - x) ^ 6 + (15404203823808 / 390625) * (x - (63 / 32)) ^ 3 * ((2) - x) ^ 5 + (27867242473472 / 390625) * (x - (63 / 32)) ^ 4 * ((2) - x) ^ 4 + (157105475813376 / 1953125) * (x - (63 / 32)) ^ 5 * ((2) - x) ^ 3 + (107824306716672 / 1953125) * (x - (63 / 32)) ^ 6 * ((2) - x) ^ 2 + (8257343062016 / 390625) * (x - (63 / 32)) ^ 7 * ((2) - x) ^ 1 + (6773163425792 / 1953125) * (x - (63 / 32)) ^ 8 * ((2) - x) ^ 0 := by ring
  rw [e]; positivity

theorem logDer_lo (x : ℝ) (h1 : (1) ≤ x) (h2 : x ≤ (2)) : 0 ≤ (500000829 / 500000000) + (-1414213641 / 250000000) * x ^ 1 + (3469670267 / 250000000) * x ^ 2 + (-4822369437 / 250000000) * x ^ 3 + (3322563811 / 200000000) * x ^ 4 + (-1815914571 / 200000000) * x ^ 5 + (384467013 / 125000000) * x ^ 6 + (-73817667 / 125000000) * x ^ 7 + (24605889 / 500000000) * x ^ 8 := by
  rcases le_total x (33 / 32) with h3 | g1
  · exact logDer_lo_0 x h1 h3
  rcases le_total x (17 / 16) with h4 | g2
  · exact logDer_lo_1 x g1 h4
  rcases le_total x (9 / 8) with h5 | g3
  · exact logDer_lo_2 x g2 h5
  rcases le_total x (5 / 4) with h6 | g4
  · exact logDer_lo_3 x g3 h6
  rcases le_total x (11 / 8) with h7 | g5
  · exact logDer_lo_4 x g4 h7
  rcases le_total x (3 / 2) with h8 | g6
  · exact logDer_lo_5 x g5 h8
  rcases le_total x (13 / 8) with h9 | g7
  · exact logDer_lo_6 x g6 h9
  rcases le_total x (7 / 4) with h10 | g8
  · exact logDer_lo_7 x g7 h10
  rcases le_total x (15 / 8) with h11 | g9
  · exact logDer_lo_8 x g8 h11
  rcases le_total x (31 / 16) with h12 | g10
  · exact logDer_lo_9 x g9 h12
  rcases le_total x (63 / 32) with h13 | g11
  · exact logDer_lo_10 x g10 h13
  exact logDer_lo_11 x g11 h2

/-- Polynomial approximation of the logarithm on `[1, 2]`. -/
noncomputable def logQ (x : ℝ) : ℝ := (-475127729 / 200000000) + (1414213641 / 250000000) * x ^ 1 + (-3469670267 / 500000000) * x ^ 2 + (1607456479 / 250000000) * x ^ 3 + (-3322563811 / 800000000) * x ^ 4 + (1815914571 / 1000000000) * x ^ 5 + (-128155671 / 250000000) * x ^ 6 + (10545381 / 125000000) * x ^ 7 + (-24605889 / 4000000000) * x ^ 8

/-- Its derivative. -/
noncomputable def logQ' (x : ℝ) : ℝ := (1414213641 / 250000000) + (-3469670267 / 250000000) * x ^ 1 + (4822369437 / 250000000) * x ^ 2 + (-3322563811 / 200000000) * x ^ 3 + (1815914571 / 200000000) * x ^ 4 + (-384467013 / 125000000) * x ^ 5 + (73817667 / 125000000) * x ^ 6 + (-24605889 / 500000000) * x ^ 7

/-- Error bound of `logQ'`. -/
noncomputable def logDl : ℝ := (829 / 500000000)

theorem lnPolyF_up_0 (x : ℝ) (h1 : (1) ≤ x) (h2 : x ≤ (5 / 4)) : 0 ≤ (-4412094998615711 / 5000000000000000) + (3544222260460803 / 1000000000000000) * x ^ 1 + (-15525590825436391 / 2500000000000000) * x ^ 2 + (3160068137928167 / 500000000000000) * x ^ 3 + (-3322563811 / 800000000) * x ^ 4 + (1815914571 / 1000000000) * x ^ 5 + (-128155671 / 250000000) * x ^ 6 + (10545381 / 125000000) * x ^ 7 + (-24605889 / 4000000000) * x ^ 8 := by
  have e1 : 0 ≤ x - (1) := sub_nonneg.2 h1
  have e2 : 0 ≤ (5 / 4) - x := sub_nonneg.2 h2
  have e : (-4412094998615711 / 5000000000000000) + (3544222260460803 / 1000000000000000) * x ^ 1 + (-15525590825436391 / 2500000000000000) * x ^ 2 + (3160068137928167 / 500000000000000) * x ^ 3 + (-3322563811 / 800000000) * x ^ 4 + (1815914571 / 1000000000) * x ^ 5 + (-128155671 / 250000000) * x ^ 6 + (10545381 / 125000000) * x ^ 7 + (-24605889 / 4000000000) * x ^ 8 = (19054194384 / 152587890625) * (x - (1)) ^ 0 * ((5 / 4) - x) ^ 8 + (16566655102721 / 61035156250) * (x - (1)) ^ 1 * ((5 / 4) - x) ^ 7 + (226965540538894 / 152587890625) * (x - (1)) ^ 2 * ((5 / 4) - x) ^ 6 + (8445357875757083 / 2441406250000) * (x - (1)) ^ 3 * ((5 / 4) - x) ^ 5 + (431059730165757 / 97656250000) * (x - (1)) ^ 4 * ((5 / 4) - x) ^ 4 + (508204150021304 / 152587890625) * (x - (1)) ^ 5 * ((5 / 4) - x) ^ 3 + (1448183294466893 / 976562500000) * (x - (1)) ^ 6 * ((5 / 4) - x) ^ 2 + (3516446332305391 / 9765625000000) * (x - (1)) ^ 7 * ((5 / 4) - x) ^ 1 + (11479300991581619 / 312500000000000) * (x - (1)) ^ 8 * ((5 / 4) - x) ^ 0 := by ring
  rw [e]; positivity

theorem lnPolyF_up_1 (x : ℝ) (h1 : (5 / 4) ≤ x) (h2 : x ≤ (11 / 8)) : 0 ≤ (-4412094998615711 / 5000000000000000) + (3544222260460803 / 1000000000000000) * x ^ 1 + (-15525590825436391 / 2500000000000000) * x ^ 2 + (3160068137928167 / 500000000000000) * x ^ 3 + (-3322563811 / 800000000) * x ^ 4 + (1815914571 / 1000000000) * x ^ 5 + (-128155671 / 250000000) * x ^ 6 + (10545381 / 125000000) * x ^ 7 + (-24605889 / 4000000000) * x ^ 8 := by
  have e1 : 0 ≤ x - (5 / 4) := sub_nonneg.2 h1
  have e2 : 0 ≤ (11 / 8) - x := sub_nonneg.2 h2
  have e : (-4412094998615711 / 5000000000000000) + (3544222260460803 / 1000000000000000) * x ^ 1 + (-15525590825436391 / 2500000000000000) * x ^ 2 + (3160068137928167 / 500000000000000) * x ^ 3 + (-3322563811 / 800000000) * x ^ 4 + (1815914571 / 1000000000) * x ^ 5 + (-128155671 / 250000000) * x ^ 6 + (10545381 / 125000000) * x ^ 7 + (-24605889 / 4000000000) * x ^ 8 = (11479300991581619 / 1220703125000) * (x - (5 / 4)) ^ 0 * ((11 / 8) - x) ^ 8 + (20372117645523293 / 305175781250) * (x - (5 / 4)) ^ 1 * ((11 / 8) - x) ^ 7 + (248287642199687749 / 1220703125000) * (x - (5 / 4)) ^ 2 * ((11 / 8) - x) ^ 6 + (423746169796759531 / 1220703125000) * (x - (5 / 4)) ^ 3 * ((11 / 8) - x) ^ 5 + (707917750219849701 / 1953125000000) * (x - (5 / 4)) ^ 4 * ((11 / 8) - x) ^ 4 + (1155486101114764891 / 4882812500000) * (x - (5 / 4)) ^ 5 * ((11 / 8) - x) ^ 3 + (1838466044941230437 / 19531250000000) * (x - (5 / 4)) ^ 6 * ((11 / 8) - x) ^ 2 + (406374344507402989 / 19531250000000) * (x - (5 / 4)) ^ 7 * ((11 / 8) - x) ^ 1 + (610531786914017331 / 312500000000000) * (x - (5 / 4)) ^ 8 * ((11 / 8) - x) ^ 0 := by ring
  rw [e]; positivity

theorem lnPolyF_up_2 (x : ℝ) (h1 : (11 / 8) ≤ x) (h2 : x ≤ (23 / 16)) : 0 ≤ (-4412094998615711 / 5000000000000000) + (3544222260460803 / 1000000000000000) * x ^ 1 + (-15525590825436391 / 2500000000000000) * x ^ 2 + (3160068137928167 / 500000000000000) * x ^ 3 + (-3322563811 / 800000000) * x ^ 4 + (1815914571 / 1000000000) * x ^ 5 + (-128155671 / 250000000) * x ^ 6 + (10545381 / 125000000) * x ^ 7 + (-24605889 / 4000000000) * x ^ 8 := by
  have e1 : 0 ≤ x - (11 / 8) := sub_nonneg.2 h1
  have e2 : 0 ≤ (23 / 16) - x := sub_nonneg.2 h2
  have e : (-4412094998615711 / 5000000000000000) + (3544222260460803 / 1000000000000000) * x ^ 1 + (-15525590825436391 / 2500000000000000) * x ^ 2 + (3160068137928167 / 500000000000000) * x ^ 3 + (-3322563811 / 800000000) * x ^ 4 + (1815914571 / 1000000000) * x ^ 5 + (-128155671 / 250000000) * x ^ 6 + (10545381 / 125000000) * x ^ 7 + (-24605889 / 4000000000) * x ^ 8 = (610531786914017331 / 1220703125000) * (x - (11 / 8)) ^ 0 * ((23 / 16) - x) ^ 8 + (203769334345449203 / 61035156250) * (x - (11 / 8)) ^ 1 * ((23 / 16) - x) ^ 7 + (467276872669046501 / 48828125000) * (x - (11 / 8)) ^ 2 * ((23 / 16) - x) ^ 6 + (18721894311917122321 / 1220703125000) * (x - (11 / 8)) ^ 3 * ((23 / 16) - x) ^ 5 + (29242198288860447381 / 1953125000000) * (x - (11 / 8)) ^ 4 * ((23 / 16) - x) ^ 4 + (44305754536934306089 / 4882812500000) * (x - (11 / 8)) ^ 5 * ((23 / 16) - x) ^ 3 + (12958113181687620713 / 3906250000000) * (x - (11 / 8)) ^ 6 * ((23 / 16) - x) ^ 2 + (2603544677875778059 / 3906250000000) * (x - (11 / 8)) ^ 7 * ((23 / 16) - x) ^ 1 + (17686895086438708691 / 312500000000000) * (x - (11 / 8)) ^ 8 * ((23 / 16) - x) ^ 0 := by ring
  rw [e]; positivity

theorem lnPolyF_up_3 (x : ℝ) (h1 : (23 / 16) ≤ x) (h2 : x ≤ (3 / 2)) : 0 ≤ (-4412094998615711 / 5000000000000000) + (3544222260460803 / 1000000000000000) * x ^ 1 + (-15525590825436391 / 2500000000000000) * x ^ 2 + (3160068137928167 / 500000000000000) * x ^ 3 + (-3322563811 / 800000000) * x ^ 4 + (1815914571 / 1000000000) * x ^ 5 + (-128155671 / 250000000) * x ^ 6 + (10545381 / 125000000) * x ^ 7 + (-24605889 / 4000000000) * x ^ 8 := by
  have e1 : 0 ≤ x - (23 / 16) := sub_nonneg.2 h1
  have e2 : 0 ≤ (3 / 2) - x := sub_nonneg.2 h2
  have e : (-4412094998615711 / 5000000000000000) + (3544222260460803 / 1000000000000000) * x ^ 1 + (-15525590825436391 / 2500000000000000) * x ^ 2 + (3160068137928167 / 500000000000000) * x ^ 3 + (-3322563811 / 800000000) * x ^ 4 + (1815914571 / 1000000000) * x ^ 5 + (-128155671 / 250000000) * x ^ 6 + (10545381 / 125000000) * x ^ 7 + (-24605889 / 4000000000) * x ^ 8 = (17686895086438708691 / 312500000000000) * (x - (23 / 16)) ^ 0 * ((3 / 2) - x) ^ 8 + (1167292924264954599 / 4882812500000) * (x - (23 / 16)) ^ 1 * ((3 / 2) - x) ^ 7 + (396919003887787517 / 1220703125000) * (x - (23 / 16)) ^ 2 * ((3 / 2) - x) ^ 6 + (15688050515445914 / 152587890625) * (x - (23 / 16)) ^ 3 * ((3 / 2) - x) ^ 5 + (1165410847091828 / 30517578125) * (x - (23 / 16)) ^ 4 * ((3 / 2) - x) ^ 4 + (65644728029111232 / 152587890625) * (x - (23 / 16)) ^ 5 * ((3 / 2) - x) ^ 3 + (98851427146642432 / 152587890625) * (x - (23 / 16)) ^ 6 * ((3 / 2) - x) ^ 2 + (57070027489521664 / 152587890625) * (x - (23 / 16)) ^ 7 * ((3 / 2) - x) ^ 1 + (11951172869218304 / 152587890625) * (x - (23 / 16)) ^ 8 * ((3 / 2) - x) ^ 0 := by ring
  rw [e]; positivity

theorem lnPolyF_up_4 (x : ℝ) (h1 : (3 / 2) ≤ x) (h2 : x ≤ (2)) : 0 ≤ (-4412094998615711 / 5000000000000000) + (3544222260460803 / 1000000000000000) * x ^ 1 + (-15525590825436391 / 2500000000000000) * x ^ 2 + (3160068137928167 / 500000000000000) * x ^ 3 + (-3322563811 / 800000000) * x ^ 4 + (1815914571 / 1000000000) * x ^ 5 + (-128155671 / 250000000) * x ^ 6 + (10545381 / 125000000) * x ^ 7 + (-24605889 / 4000000000) * x ^ 8 := by
  have e1 : 0 ≤ x - (3 / 2) := sub_nonneg.2 h1
  have e2 : 0 ≤ (2) - x := sub_nonneg.2 h2
  have e : (-4412094998615711 / 5000000000000000) + (3544222260460803 / 1000000000000000) * x ^ 1 + (-15525590825436391 / 2500000000000000) * x ^ 2 + (3160068137928167 / 500000000000000) * x ^ 3 + (-3322563811 / 800000000) * x ^ 4 + (1815914571 / 1000000000) * x ^ 5 + (-128155671 / 250000000) * x ^ 6 + (10545381 / 125000000) * x ^ 7 + (-24605889 / 4000000000) * x ^ 8 = (1458883406887 / 312500000000000) * (x - (3 / 2)) ^ 0 * ((2) - x) ^ 8 + (12326789143907 / 78125000000000) * (x - (3 / 2)) ^ 1 * ((2) - x) ^ 7 + (71235009003499 / 39062500000000) * (x - (3 / 2)) ^ 2 * ((2) - x) ^ 6 + (73647226728243 / 9765625000000) * (x - (3 / 2)) ^ 3 * ((2) - x) ^ 5 + (230598191927257 / 15625000000000) * (x - (3 / 2)) ^ 4 * ((2) - x) ^ 4 + (1174720419179083 / 78125000000000) * (x - (3 / 2)) ^ 5 * ((2) - x) ^ 3 + (151277077156493 / 19531250000000) * (x - (3 / 2)) ^ 6 * ((2) - x) ^ 2 + (62614097879889 / 39062500000000) * (x - (3 / 2)) ^ 7 * ((2) - x) ^ 1 + (9656754551 / 19531250000000) * (x - (3 / 2)) ^ 8 * ((2) - x) ^ 0 := by ring
  rw [e]; positivity

theorem lnPolyF_up (x : ℝ) (h1 : (1) ≤ x) (h2 : x ≤ (2)) : 0 ≤ (-4412094998615711 / 5000000000000000) + (3544222260460803 / 1000000000000000) * x ^ 1 + (-15525590825436391 / 2500000000000000) * x ^ 2 + (3160068137928167 / 500000000000000) * x ^ 3 + (-3322563811 / 800000000) * x ^ 4 + (1815914571 / 1000000000) * x ^ 5 + (-128155671 / 250000000) * x ^ 6 + (10545381 / 125000000) * x ^ 7 + (-24605889 / 4000000000) * x ^ 8 := by
  rcases le_total x (5 / 4) with h3 | g1
  · exact lnPolyF_up_0 x h1 h3
  rcases le_total x (11 / 8) with h4 | g2
  · exact lnPolyF_up_1 x g1 h4
  rcases le_total x (23 / 16) with h5 | g3
  · exact lnPolyF_up_2 x g2 h5
  rcases le_total x (3 / 2) with h6 | g4
  · exact lnPolyF_up_3 x g3 h6
  exact lnPolyF_up_4 x g4 h2

theorem lnPolyF_lo_0 (x : ℝ) (h1 : (1) ≤ x) (h2 : x ≤ (9 / 8)) : 0 ≤ (4416654998615711 / 5000000000000000) + (-3544222260460803 / 1000000000000000) * x ^ 1 + (15525590825436391 / 2500000000000000) * x ^ 2 + (-3160068137928167 / 500000000000000) * x ^ 3 + (3322563811 / 800000000) * x ^ 4 + (-1815914571 / 1000000000) * x ^ 5 + (128155671 / 250000000) * x ^ 6 + (-10545381 / 125000000) * x ^ 7 + (24605889 / 4000000000) * x ^ 8 := by
  have e1 : 0 ≤ x - (1) := sub_nonneg.2 h1
  have e2 : 0 ≤ (9 / 8) - x := sub_nonneg.2 h2
  have e : (4416654998615711 / 5000000000000000) + (-3544222260460803 / 1000000000000000) * x ^ 1 + (15525590825436391 / 2500000000000000) * x ^ 2 + (-3160068137928167 / 500000000000000) * x ^ 3 + (3322563811 / 800000000) * x ^ 4 + (-1815914571 / 1000000000) * x ^ 5 + (128155671 / 250000000) * x ^ 6 + (-10545381 / 125000000) * x ^ 7 + (24605889 / 4000000000) * x ^ 8 = (2329842126237696 / 152587890625) * (x - (1)) ^ 0 * ((9 / 8) - x) ^ 8 + (13356918872080064 / 152587890625) * (x - (1)) ^ 1 * ((9 / 8) - x) ^ 7 + (32257566574127136 / 152587890625) * (x - (1)) ^ 2 * ((9 / 8) - x) ^ 6 + (42410094776110778 / 152587890625) * (x - (1)) ^ 3 * ((9 / 8) - x) ^ 5 + (6548145959243324 / 30517578125) * (x - (1)) ^ 4 * ((9 / 8) - x) ^ 4 + (14979229575544531 / 152587890625) * (x - (1)) ^ 5 * ((9 / 8) - x) ^ 3 + (31931175971343127 / 1220703125000) * (x - (1)) ^ 6 * ((9 / 8) - x) ^ 2 + (20582784363314497 / 4882812500000) * (x - (1)) ^ 7 * ((9 / 8) - x) ^ 1 + (143197554134595629 / 312500000000000) * (x - (1)) ^ 8 * ((9 / 8) - x) ^ 0 := by ring
  rw [e]; positivity

theorem lnPolyF_lo_1 (x : ℝ) (h1 : (9 / 8) ≤ x) (h2 : x ≤ (5 / 4)) : 0 ≤ (4416654998615711 / 5000000000000000) + (-3544222260460803 / 1000000000000000) * x ^ 1 + (15525590825436391 / 2500000000000000) * x ^ 2 + (-3160068137928167 / 500000000000000) * x ^ 3 + (3322563811 / 800000000) * x ^ 4 + (-1815914571 / 1000000000) * x ^ 5 + (128155671 / 250000000) * x ^ 6 + (-10545381 / 125000000) * x ^ 7 + (24605889 / 4000000000) * x ^ 8 := by
  have e1 : 0 ≤ x - (9 / 8) := sub_nonneg.2 h1
  have e2 : 0 ≤ (5 / 4) - x := sub_nonneg.2 h2
  have e : (4416654998615711 / 5000000000000000) + (-3544222260460803 / 1000000000000000) * x ^ 1 + (15525590825436391 / 2500000000000000) * x ^ 2 + (-3160068137928167 / 500000000000000) * x ^ 3 + (3322563811 / 800000000) * x ^ 4 + (-1815914571 / 1000000000) * x ^ 5 + (128155671 / 250000000) * x ^ 6 + (-10545381 / 125000000) * x ^ 7 + (24605889 / 4000000000) * x ^ 8 = (143197554134595629 / 312500000000000) * (x - (9 / 8)) ^ 0 * ((5 / 4) - x) ^ 8 + (60866416681337641 / 19531250000000) * (x - (9 / 8)) ^ 1 * ((5 / 4) - x) ^ 7 + (360645770138047603 / 19531250000000) * (x - (9 / 8)) ^ 2 * ((5 / 4) - x) ^ 6 + (326790092630796759 / 4882812500000) * (x - (9 / 8)) ^ 3 * ((5 / 4) - x) ^ 5 + (264243879221758699 / 1953125000000) * (x - (9 / 8)) ^ 4 * ((5 / 4) - x) ^ 4 + (192553708067767679 / 1220703125000) * (x - (9 / 8)) ^ 5 * ((5 / 4) - x) ^ 3 + (129846514892475331 / 1220703125000) * (x - (9 / 8)) ^ 6 * ((5 / 4) - x) ^ 2 + (11810433679196817 / 305175781250) * (x - (9 / 8)) ^ 7 * ((5 / 4) - x) ^ 1 + (7198459008418381 / 1220703125000) * (x - (9 / 8)) ^ 8 * ((5 / 4) - x) ^ 0 := by ring
  rw [e]; positivity

theorem lnPolyF_lo_2 (x : ℝ) (h1 : (5 / 4) ≤ x) (h2 : x ≤ (3 / 2)) : 0 ≤ (4416654998615711 / 5000000000000000) + (-3544222260460803 / 1000000000000000) * x ^ 1 + (15525590825436391 / 2500000000000000) * x ^ 2 + (-3160068137928167 / 500000000000000) * x ^ 3 + (3322563811 / 800000000) * x ^ 4 + (-1815914571 / 1000000000) * x ^ 5 + (128155671 / 250000000) * x ^ 6 + (-10545381 / 125000000) * x ^ 7 + (24605889 / 4000000000) * x ^ 8 := by
  have e1 : 0 ≤ x - (5 / 4) := sub_nonneg.2 h1
  have e2 : 0 ≤ (3 / 2) - x := sub_nonneg.2 h2
  have e : (4416654998615711 / 5000000000000000) + (-3544222260460803 / 1000000000000000) * x ^ 1 + (15525590825436391 / 2500000000000000) * x ^ 2 + (-3160068137928167 / 500000000000000) * x ^ 3 + (3322563811 / 800000000) * x ^ 4 + (-1815914571 / 1000000000) * x ^ 5 + (128155671 / 250000000) * x ^ 6 + (-10545381 / 125000000) * x ^ 7 + (24605889 / 4000000000) * x ^ 8 = (7198459008418381 / 312500000000000) * (x - (5 / 4)) ^ 0 * ((3 / 2) - x) ^ 8 + (4892471673029163 / 19531250000000) * (x - (5 / 4)) ^ 1 * ((3 / 2) - x) ^ 7 + (4365560894828351 / 3906250000000) * (x - (5 / 4)) ^ 2 * ((3 / 2) - x) ^ 6 + (13050214148423237 / 4882812500000) * (x - (5 / 4)) ^ 3 * ((3 / 2) - x) ^ 5 + (295373957256607 / 78125000000) * (x - (5 / 4)) ^ 4 * ((3 / 2) - x) ^ 4 + (7974542710095117 / 2441406250000) * (x - (5 / 4)) ^ 5 * ((3 / 2) - x) ^ 3 + (258420362422646 / 152587890625) * (x - (5 / 4)) ^ 6 * ((3 / 2) - x) ^ 2 + (59082697740517 / 122070312500) * (x - (5 / 4)) ^ 7 * ((3 / 2) - x) ^ 1 + (71501116593113 / 1220703125000) * (x - (5 / 4)) ^ 8 * ((3 / 2) - x) ^ 0 := by ring
  rw [e]; positivity

theorem lnPolyF_lo_3 (x : ℝ) (h1 : (3 / 2) ≤ x) (h2 : x ≤ (7 / 4)) : 0 ≤ (4416654998615711 / 5000000000000000) + (-3544222260460803 / 1000000000000000) * x ^ 1 + (15525590825436391 / 2500000000000000) * x ^ 2 + (-3160068137928167 / 500000000000000) * x ^ 3 + (3322563811 / 800000000) * x ^ 4 + (-1815914571 / 1000000000) * x ^ 5 + (128155671 / 250000000) * x ^ 6 + (-10545381 / 125000000) * x ^ 7 + (24605889 / 4000000000) * x ^ 8 := by
  have e1 : 0 ≤ x - (3 / 2) := sub_nonneg.2 h1
  have e2 : 0 ≤ (7 / 4) - x := sub_nonneg.2 h2
  have e : (4416654998615711 / 5000000000000000) + (-3544222260460803 / 1000000000000000) * x ^ 1 + (15525590825436391 / 2500000000000000) * x ^ 2 + (-3160068137928167 / 500000000000000) * x ^ 3 + (3322563811 / 800000000) * x ^ 4 + (-1815914571 / 1000000000) * x ^ 5 + (128155671 / 250000000) * x ^ 6 + (-10545381 / 125000000) * x ^ 7 + (24605889 / 4000000000) * x ^ 8 = (71501116593113 / 1220703125000) * (x - (3 / 2)) ^ 0 * ((7 / 4) - x) ^ 8 + (276595444042319 / 610351562500) * (x - (3 / 2)) ^ 1 * ((7 / 4) - x) ^ 7 + (450977568534361 / 305175781250) * (x - (3 / 2)) ^ 2 * ((7 / 4) - x) ^ 6 + (6448235138413603 / 2441406250000) * (x - (3 / 2)) ^ 3 * ((7 / 4) - x) ^ 5 + (5494360648588703 / 1953125000000) * (x - (3 / 2)) ^ 4 * ((7 / 4) - x) ^ 4 + (8853177628071607 / 4882812500000) * (x - (3 / 2)) ^ 5 * ((7 / 4) - x) ^ 3 + (13340961511784403 / 19531250000000) * (x - (3 / 2)) ^ 6 * ((7 / 4) - x) ^ 2 + (2658137811456529 / 19531250000000) * (x - (3 / 2)) ^ 7 * ((7 / 4) - x) ^ 1 + (3468056591808429 / 312500000000000) * (x - (3 / 2)) ^ 8 * ((7 / 4) - x) ^ 0 := by ring
  rw [e]; positivity

theorem lnPolyF_lo_4 (x : ℝ) (h1 : (7 / 4) ≤ x) (h2 : x ≤ (15 / 8)) : 0 ≤ (4416654998615711 / 5000000000000000) + (-3544222260460803 / 1000000000000000) * x ^ 1 + (15525590825436391 / 2500000000000000) * x ^ 2 + (-3160068137928167 / 500000000000000) * x ^ 3 + (3322563811 / 800000000) * x ^ 4 + (-1815914571 / 1000000000) * x ^ 5 + (128155671 / 250000000) * x ^ 6 + (-10545381 / 125000000) * x ^ 7 + (24605889 / 4000000000) * x ^ 8 := by
  have e1 : 0 ≤ x - (7 / 4) := sub_nonneg.2 h1
  have e2 : 0 ≤ (15 / 8) - x := sub_nonneg.2 h2
  have e : (4416654998615711 / 5000000000000000) + (-3544222260460803 / 1000000000000000) * x ^ 1 + (15525590825436391 / 2500000000000000) * x ^ 2 + (-3160068137928167 / 500000000000000) * x ^ 3 + (3322563811 / 800000000) * x ^ 4 + (-1815914571 / 1000000000) * x ^ 5 + (128155671 / 250000000) * x ^ 6 + (-10545381 / 125000000) * x ^ 7 + (24605889 / 4000000000) * x ^ 8 = (3468056591808429 / 1220703125000) * (x - (7 / 4)) ^ 0 * ((15 / 8) - x) ^ 8 + (5087894152512229 / 305175781250) * (x - (7 / 4)) ^ 1 * ((15 / 8) - x) ^ 7 + (48567835168720203 / 1220703125000) * (x - (7 / 4)) ^ 2 * ((15 / 8) - x) ^ 6 + (60135796520890771 / 1220703125000) * (x - (7 / 4)) ^ 3 * ((15 / 8) - x) ^ 5 + (66936121261083419 / 1953125000000) * (x - (7 / 4)) ^ 4 * ((15 / 8) - x) ^ 4 + (76948205669887571 / 4882812500000) * (x - (7 / 4)) ^ 5 * ((15 / 8) - x) ^ 3 + (157106913183876811 / 19531250000000) * (x - (7 / 4)) ^ 6 * ((15 / 8) - x) ^ 2 + (84463601343614533 / 19531250000000) * (x - (7 / 4)) ^ 7 * ((15 / 8) - x) ^ 1 + (336193924815569261 / 312500000000000) * (x - (7 / 4)) ^ 8 * ((15 / 8) - x) ^ 0 := by ring
  rw [e]; positivity

theorem lnPolyF_lo_5 (x : ℝ) (h1 : (15 / 8) ≤ x) (h2 : x ≤ (2)) : 0 ≤ (4416654998615711 / 5000000000000000) + (-3544222260460803 / 1000000000000000) * x ^ 1 + (15525590825436391 / 2500000000000000) * x ^ 2 + (-3160068137928167 / 500000000000000) * x ^ 3 + (3322563811 / 800000000) * x ^ 4 + (-1815914571 / 1000000000) * x ^ 5 + (128155671 / 250000000) * x ^ 6 + (-10545381 / 125000000) * x ^ 7 + (24605889 / 4000000000) * x ^ 8 := by
  have e1 : 0 ≤ x - (15 / 8) := sub_nonneg.2 h1
  have e2 : 0 ≤ (2) - x := sub_nonneg.2 h2
  have e : (4416654998615711 / 5000000000000000) + (-3544222260460803 / 1000000000000000) * x ^ 1 + (15525590825436391 / 2500000000000000) * x ^ 2 + (-3160068137928167 / 500000000000000) * x ^ 3 + (3322563811 / 800000000) * x ^ 4 + (-1815914571 / 1000000000) * x ^ 5 + (128155671 / 250000000) * x ^ 6 + (-10545381 / 125000000) * x ^ 7 + (24605889 / 4000000000) * x ^ 8 = (336193924815569261 / 312500000000000) * (x - (15 / 8)) ^ 0 * ((2) - x) ^ 8 + (31466290433994341 / 2441406250000) * (x - (15 / 8)) ^ 1 * ((2) - x) ^ 7 + (10374796625642642 / 152587890625) * (x - (15 / 8)) ^ 2 * ((2) - x) ^ 6 + (30437324355463203 / 152587890625) * (x - (15 / 8)) ^ 3 * ((2) - x) ^ 5 + (10783772090196436 / 30517578125) * (x - (15 / 8)) ^ 4 * ((2) - x) ^ 4 + (59157913950861862 / 152587890625) * (x - (15 / 8)) ^ 5 * ((2) - x) ^ 3 + (39415084574650256 / 152587890625) * (x - (15 / 8)) ^ 6 * ((2) - x) ^ 2 + (14640792185706432 / 152587890625) * (x - (15 / 8)) ^ 7 * ((2) - x) ^ 1 + (2329775741669888 / 152587890625) * (x - (15 / 8)) ^ 8 * ((2) - x) ^ 0 := by ring
  rw [e]; positivity

theorem lnPolyF_lo (x : ℝ) (h1 : (1) ≤ x) (h2 : x ≤ (2)) : 0 ≤ (4416654998615711 / 5000000000000000) + (-3544222260460803 / 1000000000000000) * x ^ 1 + (15525590825436391 / 2500000000000000) * x ^ 2 + (-3160068137928167 / 500000000000000) * x ^ 3 + (3322563811 / 800000000) * x ^ 4 + (-1815914571 / 1000000000) * x ^ 5 + (128155671 / 250000000) * x ^ 6 + (-10545381 / 125000000) * x ^ 7 + (24605889 / 4000000000) * x ^ 8 := by
  rcases le_total x (9 / 8) with h3 | g1
  · exact lnPolyF_lo_0 x h1 h3
  rcases le_total x (5 / 4) with h4 | g2
  · exact lnPolyF_lo_1 x g1 h4
  rcases le_total x (3 / 2) with h5 | g3
  · exact lnPolyF_lo_2 x g2 h5
  rcases le_total x (7 / 4) with h6 | g4
  · exact lnPolyF_lo_3 x g3 h6
  rcases le_total x (15 / 8) with h7 | g5
  · exact lnPolyF_lo_4 x g4 h7
  exact lnPolyF_lo_5 x g5 h2

theorem lnPolyD_up_0 (x : ℝ) (h1 : (1) ≤ x) (h2 : x ≤ (5 / 4)) : 0 ≤ (-3446943448172604116461638969 / 3906250000000000000000000000) + (354422226261345851481070429383 / 100000000000000000000000000000) * x ^ 1 + (-621023632898397692619619858537 / 100000000000000000000000000000) * x ^ 2 + (24688032320501379611483353081 / 3906250000000000000000000000) * x ^ 3 + (-3322563811 / 800000000) * x ^ 4 + (1815914571 / 1000000000) * x ^ 5 + (-128155671 / 250000000) * x ^ 6 + (10545381 / 125000000) * x ^ 7 + (-24605889 / 4000000000) * x ^ 8 := by
  have e1 : 0 ≤ x - (1) := sub_nonneg.2 h1
  have e2 : 0 ≤ (5 / 4) - x := sub_nonneg.2 h2
  have e : (-3446943448172604116461638969 / 3906250000000000000000000000) + (354422226261345851481070429383 / 100000000000000000000000000000) * x ^ 1 + (-621023632898397692619619858537 / 100000000000000000000000000000) * x ^ 2 + (24688032320501379611483353081 / 3906250000000000000000000000) * x ^ 3 + (-3322563811 / 800000000) * x ^ 4 + (1815914571 / 1000000000) * x ^ 5 + (-128155671 / 250000000) * x ^ 6 + (10545381 / 125000000) * x ^ 7 + (-24605889 / 4000000000) * x ^ 8 = (845986412028835016130283 / 3814697265625000000000000) * (x - (1)) ^ 0 * ((5 / 4) - x) ^ 8 + (8306983525651947459793482761 / 30517578125000000000000000) * (x - (1)) ^ 1 * ((5 / 4) - x) ^ 7 + (181903607723618000411273074159 / 122070312500000000000000000) * (x - (1)) ^ 2 * ((5 / 4) - x) ^ 6 + (211465111609172117880679329379 / 61035156250000000000000000) * (x - (1)) ^ 3 * ((5 / 4) - x) ^ 5 + (21586101687818669062906117361 / 4882812500000000000000000) * (x - (1)) ^ 4 * ((5 / 4) - x) ^ 4 + (50903199107053760610038064037 / 15258789062500000000000000) * (x - (1)) ^ 5 * ((5 / 4) - x) ^ 3 + (181354030283763622097686226289 / 122070312500000000000000000) * (x - (1)) ^ 6 * ((5 / 4) - x) ^ 2 + (22025089269685129947913819047 / 61035156250000000000000000) * (x - (1)) ^ 7 * ((5 / 4) - x) ^ 1 + (4495926036579205996411336663 / 122070312500000000000000000) * (x - (1)) ^ 8 * ((5 / 4) - x) ^ 0 := by ring
  rw [e]; positivity

theorem lnPolyD_up_1 (x : ℝ) (h1 : (5 / 4) ≤ x) (h2 : x ≤ (11 / 8)) : 0 ≤ (-3446943448172604116461638969 / 3906250000000000000000000000) + (354422226261345851481070429383 / 100000000000000000000000000000) * x ^ 1 + (-621023632898397692619619858537 / 100000000000000000000000000000) * x ^ 2 + (24688032320501379611483353081 / 3906250000000000000000000000) * x ^ 3 + (-3322563811 / 800000000) * x ^ 4 + (1815914571 / 1000000000) * x ^ 5 + (-128155671 / 250000000) * x ^ 6 + (10545381 / 125000000) * x ^ 7 + (-24605889 / 4000000000) * x ^ 8 := by
  have e1 : 0 ≤ x - (5 / 4) := sub_nonneg.2 h1
  have e2 : 0 ≤ (11 / 8) - x := sub_nonneg.2 h2
  have e : (-3446943448172604116461638969 / 3906250000000000000000000000) + (354422226261345851481070429383 / 100000000000000000000000000000) * x ^ 1 + (-621023632898397692619619858537 / 100000000000000000000000000000) * x ^ 2 + (24688032320501379611483353081 / 3906250000000000000000000000) * x ^ 3 + (-3322563811 / 800000000) * x ^ 4 + (1815914571 / 1000000000) * x ^ 5 + (-128155671 / 250000000) * x ^ 6 + (10545381 / 125000000) * x ^ 7 + (-24605889 / 4000000000) * x ^ 8 = (4495926036579205996411336663 / 476837158203125000000000) * (x - (5 / 4)) ^ 0 * ((11 / 8) - x) ^ 8 + (31926023169265342009022220909 / 476837158203125000000000) * (x - (5 / 4)) ^ 1 * ((11 / 8) - x) ^ 7 + (389273642174948075380962665391 / 1907348632812500000000000) * (x - (5 / 4)) ^ 2 * ((11 / 8) - x) ^ 6 + (332375843904523864785141248899 / 953674316406250000000000) * (x - (5 / 4)) ^ 3 * ((11 / 8) - x) ^ 5 + (138927232267815341732544333949 / 381469726562500000000000) * (x - (5 / 4)) ^ 4 * ((11 / 8) - x) ^ 4 + (56751228530250830798871061759 / 238418579101562500000000) * (x - (5 / 4)) ^ 5 * ((11 / 8) - x) ^ 3 + (180861673318669849676788560961 / 1907348632812500000000000) * (x - (5 / 4)) ^ 6 * ((11 / 8) - x) ^ 2 + (20031627170480325369153079903 / 953674316406250000000000) * (x - (5 / 4)) ^ 7 * ((11 / 8) - x) ^ 1 + (1886835178531375603997294719 / 953674316406250000000000) * (x - (5 / 4)) ^ 8 * ((11 / 8) - x) ^ 0 := by ring
  rw [e]; positivity

theorem lnPolyD_up_2 (x : ℝ) (h1 : (11 / 8) ≤ x) (h2 : x ≤ (23 / 16)) : 0 ≤ (-3446943448172604116461638969 / 3906250000000000000000000000) + (354422226261345851481070429383 / 100000000000000000000000000000) * x ^ 1 + (-621023632898397692619619858537 / 100000000000000000000000000000) * x ^ 2 + (24688032320501379611483353081 / 3906250000000000000000000000) * x ^ 3 + (-3322563811 / 800000000) * x ^ 4 + (1815914571 / 1000000000) * x ^ 5 + (-128155671 / 250000000) * x ^ 6 + (10545381 / 125000000) * x ^ 7 + (-24605889 / 4000000000) * x ^ 8 := by
  have e1 : 0 ≤ x - (11 / 8) := sub_nonneg.2 h1
  have e2 : 0 ≤ (23 / 16) - x := sub_nonneg.2 h2
  have e : (-3446943448172604116461638969 / 3906250000000000000000000000) + (354422226261345851481070429383 / 100000000000000000000000000000) * x ^ 1 + (-621023632898397692619619858537 / 100000000000000000000000000000) * x ^ 2 + (24688032320501379611483353081 / 3906250000000000000000000000) * x ^ 3 + (-3322563811 / 800000000) * x ^ 4 + (1815914571 / 1000000000) * x ^ 5 + (-128155671 / 250000000) * x ^ 6 + (10545381 / 125000000) * x ^ 7 + (-24605889 / 4000000000) * x ^ 8 = (1886835178531375603997294719 / 3725290298461914062500) * (x - (11 / 8)) ^ 0 * ((23 / 16) - x) ^ 8 + (25252417114272689126781993353 / 7450580596923828125000) * (x - (11 / 8)) ^ 1 * ((23 / 16) - x) ^ 7 + (290498262138309488586995743411 / 29802322387695312500000) * (x - (11 / 8)) ^ 2 * ((23 / 16) - x) ^ 6 + (233833700232841871184795157537 / 14901161193847656250000) * (x - (11 / 8)) ^ 3 * ((23 / 16) - x) ^ 5 + (183775020806739112079465108519 / 11920928955078125000000) * (x - (11 / 8)) ^ 4 * ((23 / 16) - x) ^ 4 + (281010182605933377494180751737 / 29802322387695312500000) * (x - (11 / 8)) ^ 5 * ((23 / 16) - x) ^ 3 + (416628261872102637195306159513 / 119209289550781250000000) * (x - (11 / 8)) ^ 6 * ((23 / 16) - x) ^ 2 + (85504567500533297417310637479 / 119209289550781250000000) * (x - (11 / 8)) ^ 7 * ((23 / 16) - x) ^ 1 + (120053258821062953939317181131 / 1907348632812500000000000) * (x - (11 / 8)) ^ 8 * ((23 / 16) - x) ^ 0 := by ring
  rw [e]; positivity

theorem lnPolyD_up_3 (x : ℝ) (h1 : (23 / 16) ≤ x) (h2 : x ≤ (3 / 2)) : 0 ≤ (-3446943448172604116461638969 / 3906250000000000000000000000) + (354422226261345851481070429383 / 100000000000000000000000000000) * x ^ 1 + (-621023632898397692619619858537 / 100000000000000000000000000000) * x ^ 2 + (24688032320501379611483353081 / 3906250000000000000000000000) * x ^ 3 + (-3322563811 / 800000000) * x ^ 4 + (1815914571 / 1000000000) * x ^ 5 + (-128155671 / 250000000) * x ^ 6 + (10545381 / 125000000) * x ^ 7 + (-24605889 / 4000000000) * x ^ 8 := by
  have e1 : 0 ≤ x - (23 / 16) := sub_nonneg.2 h1
  have e2 : 0 ≤ (3 / 2) - x := sub_nonneg.2 h2
  have e : (-3446943448172604116461638969 / 3906250000000000000000000000) + (354422226261345851481070429383 / 100000000000000000000000000000) * x ^ 1 + (-621023632898397692619619858537 / 100000000000000000000000000000) * x ^ 2 + (24688032320501379611483353081 / 3906250000000000000000000000) * x ^ 3 + (-3322563811 / 800000000) * x ^ 4 + (1815914571 / 1000000000) * x ^ 5 + (-128155671 / 250000000) * x ^ 6 + (10545381 / 125000000) * x ^ 7 + (-24605889 / 4000000000) * x ^ 8 = (120053258821062953939317181131 / 1907348632812500000000000) * (x - (23 / 16)) ^ 0 * ((3 / 2) - x) ^ 8 + (8637172830132414130501635913 / 29802322387695312500000) * (x - (23 / 16)) ^ 1 * ((3 / 2) - x) ^ 7 + (14984282153019287732044375681 / 29802322387695312500000) * (x - (23 / 16)) ^ 2 * ((3 / 2) - x) ^ 6 + (682574862330798295171730383 / 1490116119384765625000) * (x - (23 / 16)) ^ 3 * ((3 / 2) - x) ^ 5 + (2874391674064887582550738577 / 5960464477539062500000) * (x - (23 / 16)) ^ 4 * ((3 / 2) - x) ^ 4 + (11703991615484979571059995477 / 14901161193847656250000) * (x - (23 / 16)) ^ 5 * ((3 / 2) - x) ^ 3 + (24600118500210535513963771123 / 29802322387695312500000) * (x - (23 / 16)) ^ 6 * ((3 / 2) - x) ^ 2 + (395586922206424809171841218 / 931322574615478515625) * (x - (23 / 16)) ^ 7 * ((3 / 2) - x) ^ 1 + (15770271514765025637687666 / 186264514923095703125) * (x - (23 / 16)) ^ 8 * ((3 / 2) - x) ^ 0 := by ring
  rw [e]; positivity

theorem lnPolyD_up_4 (x : ℝ) (h1 : (3 / 2) ≤ x) (h2 : x ≤ (2)) : 0 ≤ (-3446943448172604116461638969 / 3906250000000000000000000000) + (354422226261345851481070429383 / 100000000000000000000000000000) * x ^ 1 + (-621023632898397692619619858537 / 100000000000000000000000000000) * x ^ 2 + (24688032320501379611483353081 / 3906250000000000000000000000) * x ^ 3 + (-3322563811 / 800000000) * x ^ 4 + (1815914571 / 1000000000) * x ^ 5 + (-128155671 / 250000000) * x ^ 6 + (10545381 / 125000000) * x ^ 7 + (-24605889 / 4000000000) * x ^ 8 := by
  have e1 : 0 ≤ x - (3 / 2) := sub_nonneg.2 h1
  have e2 : 0 ≤ (2) - x := sub_nonneg.2 h2
  have e : (-3446943448172604116461638969 / 3906250000000000000000000000) + (354422226261345851481070429383 / 100000000000000000000000000000) * x ^ 1 + (-621023632898397692619619858537 / 100000000000000000000000000000) * x ^ 2 + (24688032320501379611483353081 / 3906250000000000000000000000) * x ^ 3 + (-3322563811 / 800000000) * x ^ 4 + (1815914571 / 1000000000) * x ^ 5 + (-128155671 / 250000000) * x ^ 6 + (10545381 / 125000000) * x ^ 7 + (-24605889 / 4000000000) * x ^ 8 = (7885135757382512818843833 / 1562500000000000000000000000) * (x - (3 / 2)) ^ 0 * ((2) - x) ^ 8 + (39259411994750168065512969 / 244140625000000000000000000) * (x - (3 / 2)) ^ 1 * ((2) - x) ^ 7 + (14329653592909178968348850407 / 7812500000000000000000000000) * (x - (3 / 2)) ^ 2 * ((2) - x) ^ 6 + (29541512634006679797139628849 / 3906250000000000000000000000) * (x - (3 / 2)) ^ 3 * ((2) - x) ^ 5 + (23101113276999334438588543223 / 1562500000000000000000000000) * (x - (3 / 2)) ^ 4 * ((2) - x) ^ 4 + (5881857120267929377592852179 / 390625000000000000000000000) * (x - (3 / 2)) ^ 5 * ((2) - x) ^ 3 + (60593338804842702060861233473 / 7812500000000000000000000000) * (x - (3 / 2)) ^ 6 * ((2) - x) ^ 2 + (6273189936290434471348931441 / 3906250000000000000000000000) * (x - (3 / 2)) ^ 7 * ((2) - x) ^ 1 + (850736412028835085445001 / 976562500000000000000000000) * (x - (3 / 2)) ^ 8 * ((2) - x) ^ 0 := by ring
  rw [e]; positivity

theorem lnPolyD_up (x : ℝ) (h1 : (1) ≤ x) (h2 : x ≤ (2)) : 0 ≤ (-3446943448172604116461638969 / 3906250000000000000000000000) + (354422226261345851481070429383 / 100000000000000000000000000000) * x ^ 1 + (-621023632898397692619619858537 / 100000000000000000000000000000) * x ^ 2 + (24688032320501379611483353081 / 3906250000000000000000000000) * x ^ 3 + (-3322563811 / 800000000) * x ^ 4 + (1815914571 / 1000000000) * x ^ 5 + (-128155671 / 250000000) * x ^ 6 + (10545381 / 125000000) * x ^ 7 + (-24605889 / 4000000000) * x ^ 8 := by
  rcases le_total x (5 / 4) with h3 | g1
  · exact lnPolyD_up_0 x h1 h3
  rcases le_total x (11 / 8) with h4 | g2
  · exact lnPolyD_up_1 x g1 h4
  rcases le_total x (23 / 16) with h5 | g3
  · exact lnPolyD_up_2 x g2 h5
  rcases le_total x (3 / 2) with h6 | g4
  · exact lnPolyD_up_3 x g3 h6
  exact lnPolyD_up_4 x g4 h2

theorem lnPolyD_lo_0 (x : ℝ) (h1 : (1) ≤ x) (h2 : x ≤ (9 / 8)) : 0 ≤ (3450420010672604116461638969 / 3906250000000000000000000000) + (-354422226261345851481070429383 / 100000000000000000000000000000) * x ^ 1 + (621023632898397692619619858537 / 100000000000000000000000000000) * x ^ 2 + (-24688032320501379611483353081 / 3906250000000000000000000000) * x ^ 3 + (3322563811 / 800000000) * x ^ 4 + (-1815914571 / 1000000000) * x ^ 5 + (128155671 / 250000000) * x ^ 6 + (-10545381 / 125000000) * x ^ 7 + (24605889 / 4000000000) * x ^ 8 := by
  have e1 : 0 ≤ x - (1) := sub_nonneg.2 h1
  have e2 : 0 ≤ (9 / 8) - x := sub_nonneg.2 h2
  have e : (3450420010672604116461638969 / 3906250000000000000000000000) + (-354422226261345851481070429383 / 100000000000000000000000000000) * x ^ 1 + (621023632898397692619619858537 / 100000000000000000000000000000) * x ^ 2 + (-24688032320501379611483353081 / 3906250000000000000000000000) * x ^ 3 + (3322563811 / 800000000) * x ^ 4 + (-1815914571 / 1000000000) * x ^ 5 + (128155671 / 250000000) * x ^ 6 + (-10545381 / 125000000) * x ^ 7 + (24605889 / 4000000000) * x ^ 8 = (221654013587971164983869717 / 14901161193847656250000) * (x - (1)) ^ 0 * ((9 / 8) - x) ^ 8 + (20118873343978207099174179127 / 238418579101562500000000) * (x - (1)) ^ 1 * ((9 / 8) - x) ^ 7 + (76436569946589926908011334993 / 381469726562500000000000) * (x - (1)) ^ 2 * ((9 / 8) - x) ^ 6 + (244026376658707125699861219307 / 953674316406250000000000) * (x - (1)) ^ 3 * ((9 / 8) - x) ^ 5 + (71333476135216242682211911967 / 381469726562500000000000) * (x - (1)) ^ 4 * ((9 / 8) - x) ^ 4 + (36291754702008510195938832099 / 476837158203125000000000) * (x - (1)) ^ 5 * ((9 / 8) - x) ^ 3 + (28855810622280748577855915451 / 1907348632812500000000000) * (x - (1)) ^ 6 * ((9 / 8) - x) ^ 2 + (202968562089944509576550087 / 190734863281250000000000) * (x - (1)) ^ 7 * ((9 / 8) - x) ^ 1 + (61350730301837123631214997 / 953674316406250000000000) * (x - (1)) ^ 8 * ((9 / 8) - x) ^ 0 := by ring
  rw [e]; positivity

theorem lnPolyD_lo_1 (x : ℝ) (h1 : (9 / 8) ≤ x) (h2 : x ≤ (19 / 16)) : 0 ≤ (3450420010672604116461638969 / 3906250000000000000000000000) + (-354422226261345851481070429383 / 100000000000000000000000000000) * x ^ 1 + (621023632898397692619619858537 / 100000000000000000000000000000) * x ^ 2 + (-24688032320501379611483353081 / 3906250000000000000000000000) * x ^ 3 + (3322563811 / 800000000) * x ^ 4 + (-1815914571 / 1000000000) * x ^ 5 + (128155671 / 250000000) * x ^ 6 + (-10545381 / 125000000) * x ^ 7 + (24605889 / 4000000000) * x ^ 8 := by
  have e1 : 0 ≤ x - (9 / 8) := sub_nonneg.2 h1
  have e2 : 0 ≤ (19 / 16) - x := sub_nonneg.2 h2
  have e : (3450420010672604116461638969 / 3906250000000000000000000000) + (-354422226261345851481070429383 / 100000000000000000000000000000) * x ^ 1 + (621023632898397692619619858537 / 100000000000000000000000000000) * x ^ 2 + (-24688032320501379611483353081 / 3906250000000000000000000000) * x ^ 3 + (3322563811 / 800000000) * x ^ 4 + (-1815914571 / 1000000000) * x ^ 5 + (128155671 / 250000000) * x ^ 6 + (-10545381 / 125000000) * x ^ 7 + (24605889 / 4000000000) * x ^ 8 = (61350730301837123631214997 / 3725290298461914062500) * (x - (9 / 8)) ^ 0 * ((19 / 16) - x) ^ 8 + (457574716794368419266409493 / 7450580596923828125000) * (x - (9 / 8)) ^ 1 * ((19 / 16) - x) ^ 7 + (17153180655518311876912755669 / 29802322387695312500000) * (x - (9 / 8)) ^ 2 * ((19 / 16) - x) ^ 6 + (8807579923788988618938281811 / 2980232238769531250000) * (x - (9 / 8)) ^ 3 * ((19 / 16) - x) ^ 5 + (85236090243632902614485796361 / 11920928955078125000000) * (x - (9 / 8)) ^ 4 * ((19 / 16) - x) ^ 4 + (278078074843621647661144932401 / 29802322387695312500000) * (x - (9 / 8)) ^ 5 * ((19 / 16) - x) ^ 3 + (815389486169713954512534915623 / 119209289550781250000000) * (x - (9 / 8)) ^ 6 * ((19 / 16) - x) ^ 2 + (317903398299502453319251774871 / 119209289550781250000000) * (x - (9 / 8)) ^ 7 * ((19 / 16) - x) ^ 1 + (164844019935347532551130790993 / 381469726562500000000000) * (x - (9 / 8)) ^ 8 * ((19 / 16) - x) ^ 0 := by ring
  rw [e]; positivity

theorem lnPolyD_lo_2 (x : ℝ) (h1 : (19 / 16) ≤ x) (h2 : x ≤ (5 / 4)) : 0 ≤ (3450420010672604116461638969 / 3906250000000000000000000000) + (-354422226261345851481070429383 / 100000000000000000000000000000) * x ^ 1 + (621023632898397692619619858537 / 100000000000000000000000000000) * x ^ 2 + (-24688032320501379611483353081 / 3906250000000000000000000000) * x ^ 3 + (3322563811 / 800000000) * x ^ 4 + (-1815914571 / 1000000000) * x ^ 5 + (128155671 / 250000000) * x ^ 6 + (-10545381 / 125000000) * x ^ 7 + (24605889 / 4000000000) * x ^ 8 := by
  have e1 : 0 ≤ x - (19 / 16) := sub_nonneg.2 h1
  have e2 : 0 ≤ (5 / 4) - x := sub_nonneg.2 h2
  have e : (3450420010672604116461638969 / 3906250000000000000000000000) + (-354422226261345851481070429383 / 100000000000000000000000000000) * x ^ 1 + (621023632898397692619619858537 / 100000000000000000000000000000) * x ^ 2 + (-24688032320501379611483353081 / 3906250000000000000000000000) * x ^ 3 + (3322563811 / 800000000) * x ^ 4 + (-1815914571 / 1000000000) * x ^ 5 + (128155671 / 250000000) * x ^ 6 + (-10545381 / 125000000) * x ^ 7 + (24605889 / 4000000000) * x ^ 8 = (164844019935347532551130790993 / 381469726562500000000000) * (x - (19 / 16)) ^ 0 * ((5 / 4) - x) ^ 8 + (253158350688617604718201090047 / 59604644775390625000000) * (x - (19 / 16)) ^ 1 * ((5 / 4) - x) ^ 7 + (266785325964230405916573469023 / 14901161193847656250000) * (x - (19 / 16)) ^ 2 * ((5 / 4) - x) ^ 6 + (315414929278283083865437556733 / 7450580596923828125000) * (x - (19 / 16)) ^ 3 * ((5 / 4) - x) ^ 5 + (366753126619262492697821774431 / 5960464477539062500000) * (x - (19 / 16)) ^ 4 * ((5 / 4) - x) ^ 4 + (168078948769677153261899469507 / 2980232238769531250000) * (x - (19 / 16)) ^ 5 * ((5 / 4) - x) ^ 3 + (950378859171501008994276534661 / 29802322387695312500000) * (x - (19 / 16)) ^ 6 * ((5 / 4) - x) ^ 2 + (37943798291364398095150140997 / 3725290298461914062500) * (x - (19 / 16)) ^ 7 * ((5 / 4) - x) ^ 1 + (2624073963420794003588663337 / 1862645149230957031250) * (x - (19 / 16)) ^ 8 * ((5 / 4) - x) ^ 0 := by ring
  rw [e]; positivity

theorem lnPolyD_lo_3 (x : ℝ) (h1 : (5 / 4) ≤ x) (h2 : x ≤ (3 / 2)) : 0 ≤ (3450420010672604116461638969 / 3906250000000000000000000000) + (-354422226261345851481070429383 / 100000000000000000000000000000) * x ^ 1 + (621023632898397692619619858537 / 100000000000000000000000000000) * x ^ 2 + (-24688032320501379611483353081 / 3906250000000000000000000000) * x ^ 3 + (3322563811 / 800000000) * x ^ 4 + (-1815914571 / 1000000000) * x ^ 5 + (128155671 / 250000000) * x ^ 6 + (-10545381 / 125000000) * x ^ 7 + (24605889 / 4000000000) * x ^ 8 := by
  have e1 : 0 ≤ x - (5 / 4) := sub_nonneg.2 h1
  have e2 : 0 ≤ (3 / 2) - x := sub_nonneg.2 h2
  have e : (3450420010672604116461638969 / 3906250000000000000000000000) + (-354422226261345851481070429383 / 100000000000000000000000000000) * x ^ 1 + (621023632898397692619619858537 / 100000000000000000000000000000) * x ^ 2 + (-24688032320501379611483353081 / 3906250000000000000000000000) * x ^ 3 + (3322563811 / 800000000) * x ^ 4 + (-1815914571 / 1000000000) * x ^ 5 + (128155671 / 250000000) * x ^ 6 + (-10545381 / 125000000) * x ^ 7 + (24605889 / 4000000000) * x ^ 8 = (2624073963420794003588663337 / 122070312500000000000000000) * (x - (5 / 4)) ^ 0 * ((3 / 2) - x) ^ 8 + (14537680977051481976623125743 / 61035156250000000000000000) * (x - (5 / 4)) ^ 1 * ((3 / 2) - x) ^ 7 + (131164753170548944845831000771 / 122070312500000000000000000) * (x - (5 / 4)) ^ 2 * ((3 / 2) - x) ^ 6 + (3157373623708841645653125717 / 1220703125000000000000000) * (x - (5 / 4)) ^ 3 * ((3 / 2) - x) ^ 5 + (89674879879595770244052043071 / 24414062500000000000000000) * (x - (5 / 4)) ^ 4 * ((3 / 2) - x) ^ 4 + (194104639503521339428440752351 / 61035156250000000000000000) * (x - (5 / 4)) ^ 5 * ((3 / 2) - x) ^ 3 + (201477400213260967819932635181 / 122070312500000000000000000) * (x - (5 / 4)) ^ 6 * ((3 / 2) - x) ^ 2 + (3598760611618262979979394381 / 7629394531250000000000000) * (x - (5 / 4)) ^ 7 * ((3 / 2) - x) ^ 1 + (348114864242617487181156167 / 6103515625000000000000000) * (x - (5 / 4)) ^ 8 * ((3 / 2) - x) ^ 0 := by ring
  rw [e]; positivity

theorem lnPolyD_lo_4 (x : ℝ) (h1 : (3 / 2) ≤ x) (h2 : x ≤ (7 / 4)) : 0 ≤ (3450420010672604116461638969 / 3906250000000000000000000000) + (-354422226261345851481070429383 / 100000000000000000000000000000) * x ^ 1 + (621023632898397692619619858537 / 100000000000000000000000000000) * x ^ 2 + (-24688032320501379611483353081 / 3906250000000000000000000000) * x ^ 3 + (3322563811 / 800000000) * x ^ 4 + (-1815914571 / 1000000000) * x ^ 5 + (128155671 / 250000000) * x ^ 6 + (-10545381 / 125000000) * x ^ 7 + (24605889 / 4000000000) * x ^ 8 := by
  have e1 : 0 ≤ x - (3 / 2) := sub_nonneg.2 h1
  have e2 : 0 ≤ (7 / 4) - x := sub_nonneg.2 h2
  have e : (3450420010672604116461638969 / 3906250000000000000000000000) + (-354422226261345851481070429383 / 100000000000000000000000000000) * x ^ 1 + (621023632898397692619619858537 / 100000000000000000000000000000) * x ^ 2 + (-24688032320501379611483353081 / 3906250000000000000000000000) * x ^ 3 + (3322563811 / 800000000) * x ^ 4 + (-1815914571 / 1000000000) * x ^ 5 + (128155671 / 250000000) * x ^ 6 + (-10545381 / 125000000) * x ^ 7 + (24605889 / 4000000000) * x ^ 8 = (348114864242617487181156167 / 6103515625000000000000000) * (x - (3 / 2)) ^ 0 * ((7 / 4) - x) ^ 8 + (3363536673234086763643728959 / 7629394531250000000000000) * (x - (3 / 2)) ^ 1 * ((7 / 4) - x) ^ 7 + (175132319114233231590338107917 / 122070312500000000000000000) * (x - (3 / 2)) ^ 2 * ((7 / 4) - x) ^ 6 + (155947222575498087516581662863 / 61035156250000000000000000) * (x - (3 / 2)) ^ 3 * ((7 / 4) - x) ^ 5 + (66050208221604738879522918623 / 24414062500000000000000000) * (x - (3 / 2)) ^ 4 * ((7 / 4) - x) ^ 4 + (10540618050438439103399698177 / 6103515625000000000000000) * (x - (3 / 2)) ^ 5 * ((7 / 4) - x) ^ 3 + (78122533451801534807701447139 / 122070312500000000000000000) * (x - (3 / 2)) ^ 6 * ((7 / 4) - x) ^ 2 + (7555479502297344774489369151 / 61035156250000000000000000) * (x - (3 / 2)) ^ 7 * ((7 / 4) - x) ^ 1 + (1166911889334116907283419401 / 122070312500000000000000000) * (x - (3 / 2)) ^ 8 * ((7 / 4) - x) ^ 0 := by ring
  rw [e]; positivity

theorem lnPolyD_lo_5 (x : ℝ) (h1 : (7 / 4) ≤ x) (h2 : x ≤ (29 / 16)) : 0 ≤ (3450420010672604116461638969 / 3906250000000000000000000000) + (-354422226261345851481070429383 / 100000000000000000000000000000) * x ^ 1 + (621023632898397692619619858537 / 100000000000000000000000000000) * x ^ 2 + (-24688032320501379611483353081 / 3906250000000000000000000000) * x ^ 3 + (3322563811 / 800000000) * x ^ 4 + (-1815914571 / 1000000000) * x ^ 5 + (128155671 / 250000000) * x ^ 6 + (-10545381 / 125000000) * x ^ 7 + (24605889 / 4000000000) * x ^ 8 := by
  have e1 : 0 ≤ x - (7 / 4) := sub_nonneg.2 h1
  have e2 : 0 ≤ (29 / 16) - x := sub_nonneg.2 h2
  have e : (3450420010672604116461638969 / 3906250000000000000000000000) + (-354422226261345851481070429383 / 100000000000000000000000000000) * x ^ 1 + (621023632898397692619619858537 / 100000000000000000000000000000) * x ^ 2 + (-24688032320501379611483353081 / 3906250000000000000000000000) * x ^ 3 + (3322563811 / 800000000) * x ^ 4 + (-1815914571 / 1000000000) * x ^ 5 + (128155671 / 250000000) * x ^ 6 + (-10545381 / 125000000) * x ^ 7 + (24605889 / 4000000000) * x ^ 8 = (1166911889334116907283419401 / 1862645149230957031250) * (x - (7 / 4)) ^ 0 * ((29 / 16) - x) ^ 8 + (15782758284384993371179018869 / 3725290298461914062500) * (x - (7 / 4)) ^ 1 * ((29 / 16) - x) ^ 7 + (366077290824869235691839187269 / 29802322387695312500000) * (x - (7 / 4)) ^ 2 * ((29 / 16) - x) ^ 6 + (59199834761797089998328691227 / 2980232238769531250000) * (x - (7 / 4)) ^ 3 * ((29 / 16) - x) ^ 5 + (116223019669752845155667836303 / 5960464477539062500000) * (x - (7 / 4)) ^ 4 * ((29 / 16) - x) ^ 4 + (88100477196416969163526368429 / 7450580596923828125000) * (x - (7 / 4)) ^ 5 * ((29 / 16) - x) ^ 3 + (64033083134533010327558547971 / 14901161193847656250000) * (x - (7 / 4)) ^ 6 * ((29 / 16) - x) ^ 2 + (50778530365650297487331543323 / 59604644775390625000000) * (x - (7 / 4)) ^ 7 * ((29 / 16) - x) ^ 1 + (27167262372181489435156348881 / 381469726562500000000000) * (x - (7 / 4)) ^ 8 * ((29 / 16) - x) ^ 0 := by ring
  rw [e]; positivity

theorem lnPolyD_lo_6 (x : ℝ) (h1 : (29 / 16) ≤ x) (h2 : x ≤ (15 / 8)) : 0 ≤ (3450420010672604116461638969 / 3906250000000000000000000000) + (-354422226261345851481070429383 / 100000000000000000000000000000) * x ^ 1 + (621023632898397692619619858537 / 100000000000000000000000000000) * x ^ 2 + (-24688032320501379611483353081 / 3906250000000000000000000000) * x ^ 3 + (3322563811 / 800000000) * x ^ 4 + (-1815914571 / 1000000000) * x ^ 5 + (128155671 / 250000000) * x ^ 6 + (-10545381 / 125000000) * x ^ 7 + (24605889 / 4000000000) * x ^ 8 := by
  have e1 : 0 ≤ x - (29 / 16) := sub_nonneg.2 h1
  have e2 : 0 ≤ (15 / 8) - x := sub_nonneg.2 h2
  have e : (3450420010672604116461638969 / 3906250000000000000000000000) + (-354422226261345851481070429383 / 100000000000000000000000000000) * x ^ 1 + (621023632898397692619619858537 / 100000000000000000000000000000) * x ^ 2 + (-24688032320501379611483353081 / 3906250000000000000000000000) * x ^ 3 + (3322563811 / 800000000) * x ^ 4 + (-1815914571 / 1000000000) * x ^ 5 + (128155671 / 250000000) * x ^ 6 + (-10545381 / 125000000) * x ^ 7 + (24605889 / 4000000000) * x ^ 8 = (27167262372181489435156348881 / 381469726562500000000000) * (x - (29 / 16)) ^ 0 * ((15 / 8) - x) ^ 8 + (34279251129606852201118657759 / 119209289550781250000000) * (x - (29 / 16)) ^ 1 * ((15 / 8) - x) ^ 7 + (41319997864407883205657381559 / 119209289550781250000000) * (x - (29 / 16)) ^ 2 * ((15 / 8) - x) ^ 6 + (2547994112164006969847068857 / 29802322387695312500000) * (x - (29 / 16)) ^ 3 * ((15 / 8) - x) ^ 5 + (3682877204354150357629865097 / 11920928955078125000000) * (x - (29 / 16)) ^ 4 * ((15 / 8) - x) ^ 4 + (3686092051931636936699965483 / 2980232238769531250000) * (x - (29 / 16)) ^ 5 * ((15 / 8) - x) ^ 3 + (46407296456708644550413485621 / 29802322387695312500000) * (x - (29 / 16)) ^ 6 * ((15 / 8) - x) ^ 2 + (6322870361324943002405547269 / 7450580596923828125000) * (x - (29 / 16)) ^ 7 * ((15 / 8) - x) ^ 1 + (650409716998418805273243749 / 3725290298461914062500) * (x - (29 / 16)) ^ 8 * ((15 / 8) - x) ^ 0 := by ring
  rw [e]; positivity

theorem lnPolyD_lo_7 (x : ℝ) (h1 : (15 / 8) ≤ x) (h2 : x ≤ (2)) : 0 ≤ (3450420010672604116461638969 / 3906250000000000000000000000) + (-354422226261345851481070429383 / 100000000000000000000000000000) * x ^ 1 + (621023632898397692619619858537 / 100000000000000000000000000000) * x ^ 2 + (-24688032320501379611483353081 / 3906250000000000000000000000) * x ^ 3 + (3322563811 / 800000000) * x ^ 4 + (-1815914571 / 1000000000) * x ^ 5 + (128155671 / 250000000) * x ^ 6 + (-10545381 / 125000000) * x ^ 7 + (24605889 / 4000000000) * x ^ 8 := by
  have e1 : 0 ≤ x - (15 / 8) := sub_nonneg.2 h1
  have e2 : 0 ≤ (2) - x := sub_nonneg.2 h2
  have e : (3450420010672604116461638969 / 3906250000000000000000000000) + (-354422226261345851481070429383 / 100000000000000000000000000000) * x ^ 1 + (621023632898397692619619858537 / 100000000000000000000000000000) * x ^ 2 + (-24688032320501379611483353081 / 3906250000000000000000000000) * x ^ 3 + (3322563811 / 800000000) * x ^ 4 + (-1815914571 / 1000000000) * x ^ 5 + (128155671 / 250000000) * x ^ 6 + (-10545381 / 125000000) * x ^ 7 + (24605889 / 4000000000) * x ^ 8 = (650409716998418805273243749 / 953674316406250000000000) * (x - (15 / 8)) ^ 0 * ((2) - x) ^ 8 + (9286962846637108324152302707 / 953674316406250000000000) * (x - (15 / 8)) ^ 1 * ((2) - x) ^ 7 + (108653238648264116307095349819 / 1907348632812500000000000) * (x - (15 / 8)) ^ 2 * ((2) - x) ^ 6 + (84600870701128218852608915203 / 476837158203125000000000) * (x - (15 / 8)) ^ 3 * ((2) - x) ^ 5 + (124281477195528882824845868031 / 381469726562500000000000) * (x - (15 / 8)) ^ 4 * ((2) - x) ^ 4 + (348705806943723469498650242139 / 953674316406250000000000) * (x - (15 / 8)) ^ 5 * ((2) - x) ^ 3 + (471657599264308918610226523989 / 1907348632812500000000000) * (x - (15 / 8)) ^ 6 * ((2) - x) ^ 2 + (22125139368154797360448348463 / 238418579101562500000000) * (x - (15 / 8)) ^ 7 * ((2) - x) ^ 1 + (221649263587971164914554999 / 14901161193847656250000) * (x - (15 / 8)) ^ 8 * ((2) - x) ^ 0 := by ring
  rw [e]; positivity

theorem lnPolyD_lo (x : ℝ) (h1 : (1) ≤ x) (h2 : x ≤ (2)) : 0 ≤ (3450420010672604116461638969 / 3906250000000000000000000000) + (-354422226261345851481070429383 / 100000000000000000000000000000) * x ^ 1 + (621023632898397692619619858537 / 100000000000000000000000000000) * x ^ 2 + (-24688032320501379611483353081 / 3906250000000000000000000000) * x ^ 3 + (3322563811 / 800000000) * x ^ 4 + (-1815914571 / 1000000000) * x ^ 5 + (128155671 / 250000000) * x ^ 6 + (-10545381 / 125000000) * x ^ 7 + (24605889 / 4000000000) * x ^ 8 := by
  rcases le_total x (9 / 8) with h3 | g1
  · exact lnPolyD_lo_0 x h1 h3
  rcases le_total x (19 / 16) with h4 | g2
  · exact lnPolyD_lo_1 x g1 h4
  rcases le_total x (5 / 4) with h5 | g3
  · exact lnPolyD_lo_2 x g2 h5
  rcases le_total x (3 / 2) with h6 | g4
  · exact lnPolyD_lo_3 x g3 h6
  rcases le_total x (7 / 4) with h7 | g5
  · exact lnPolyD_lo_4 x g4 h7
  rcases le_total x (29 / 16) with h8 | g6
  · exact lnPolyD_lo_5 x g5 h8
  rcases le_total x (15 / 8) with h9 | g7
  · exact lnPolyD_lo_6 x g6 h9
  exact lnPolyD_lo_7 x g7 h2

theorem sqrtA1_lo_0 (x : ℝ) (h1 : (0) ≤ x) (h2 : x ≤ (173 / 400)) : 0 ≤ (1198561 / 12500000) + (3871061 / 6250000) * x ^ 1 + (-1478 / 625) * x ^ 2 + (1) * x ^ 3 := by
  have e1 : 0 ≤ x - (0) := sub_nonneg.2 h1
  have e2 : 0 ≤ (173 / 400) - x := sub_nonneg.2 h2
  have e : (1198561 / 12500000) + (3871061 / 6250000) * x ^ 1 + (-1478 / 625) * x ^ 2 + (1) * x ^ 3 = (153415808 / 129442925) * (x - (0)) ^ 0 * ((173 / 400) - x) ^ 3 + (22221282448 / 3236073125) * (x - (0)) ^ 1 * ((173 / 400) - x) ^ 2 + (15242354496 / 3236073125) * (x - (0)) ^ 2 * ((173 / 400) - x) ^ 1 + (92540373 / 3236073125) * (x - (0)) ^ 3 * ((173 / 400) - x) ^ 0 := by ring
  rw [e]; positivity

theorem sqrtA1_lo (x : ℝ) (h1 : (0) ≤ x) (h2 : x ≤ (173 / 400)) : 0 ≤ (1198561 / 12500000) + (3871061 / 6250000) * x ^ 1 + (-1478 / 625) * x ^ 2 + (1) * x ^ 3 := by
  exact sqrtA1_lo_0 x h1 h2

theorem sqrtA1_up_0 (x : ℝ) (h1 : (0) ≤ x) (h2 : x ≤ (173 / 1600)) : 0 ≤ (14039 / 320000) + (-99129 / 160000) * x ^ 1 + (473 / 200) * x ^ 2 + (-1) * x ^ 3 := by
  have e1 : 0 ≤ x - (0) := sub_nonneg.2 h1
  have e2 : 0 ≤ (173 / 1600) - x := sub_nonneg.2 h2
  have e : (14039 / 320000) + (-99129 / 160000) * x ^ 1 + (473 / 200) * x ^ 2 + (-1) * x ^ 3 = (179699200 / 5177717) * (x - (0)) ^ 0 * ((173 / 1600) - x) ^ 3 + (264708528 / 5177717) * (x - (0)) ^ 1 * ((173 / 1600) - x) ^ 2 + (103570792 / 5177717) * (x - (0)) ^ 2 * ((173 / 1600) - x) ^ 1 + (13383747 / 5177717) * (x - (0)) ^ 3 * ((173 / 1600) - x) ^ 0 := by ring
  rw [e]; positivity

theorem sqrtA1_up_1 (x : ℝ) (h1 : (173 / 1600) ≤ x) (h2 : x ≤ (519 / 3200)) : 0 ≤ (14039 / 320000) + (-99129 / 160000) * x ^ 1 + (473 / 200) * x ^ 2 + (-1) * x ^ 3 := by
  have e1 : 0 ≤ x - (173 / 1600) := sub_nonneg.2 h1
  have e2 : 0 ≤ (519 / 3200) - x := sub_nonneg.2 h2
  have e : (14039 / 320000) + (-99129 / 160000) * x ^ 1 + (473 / 200) * x ^ 2 + (-1) * x ^ 3 = (107069976 / 5177717) * (x - (173 / 1600)) ^ 0 * ((519 / 3200) - x) ^ 3 + (67531724 / 5177717) * (x - (173 / 1600)) ^ 1 * ((519 / 3200) - x) ^ 2 + (9289890 / 5177717) * (x - (173 / 1600)) ^ 2 * ((519 / 3200) - x) ^ 1 + (43650425 / 5177717) * (x - (173 / 1600)) ^ 3 * ((519 / 3200) - x) ^ 0 := by ring
  rw [e]; positivity

theorem sqrtA1_up_2 (x : ℝ) (h1 : (519 / 3200) ≤ x) (h2 : x ≤ (173 / 800)) : 0 ≤ (14039 / 320000) + (-99129 / 160000) * x ^ 1 + (473 / 200) * x ^ 2 + (-1) * x ^ 3 := by
  have e1 : 0 ≤ x - (519 / 3200) := sub_nonneg.2 h1
  have e2 : 0 ≤ (173 / 800) - x := sub_nonneg.2 h2
  have e : (14039 / 320000) + (-99129 / 160000) * x ^ 1 + (473 / 200) * x ^ 2 + (-1) * x ^ 3 = (43650425 / 5177717) * (x - (519 / 3200)) ^ 0 * ((173 / 800) - x) ^ 3 + (252612660 / 5177717) * (x - (519 / 3200)) ^ 1 * ((173 / 800) - x) ^ 2 + (554177264 / 5177717) * (x - (519 / 3200)) ^ 2 * ((173 / 800) - x) ^ 1 + (340037312 / 5177717) * (x - (519 / 3200)) ^ 3 * ((173 / 800) - x) ^ 0 := by ring
  rw [e]; positivity

theorem sqrtA1_up_3 (x : ℝ) (h1 : (173 / 800) ≤ x) (h2 : x ≤ (173 / 400)) : 0 ≤ (14039 / 320000) + (-99129 / 160000) * x ^ 1 + (473 / 200) * x ^ 2 + (-1) * x ^ 3 := by
  have e1 : 0 ≤ x - (173 / 800) := sub_nonneg.2 h1
  have e2 : 0 ≤ (173 / 400) - x := sub_nonneg.2 h2
  have e : (14039 / 320000) + (-99129 / 160000) * x ^ 1 + (473 / 200) * x ^ 2 + (-1) * x ^ 3 = (5313083 / 5177717) * (x - (173 / 800)) ^ 0 * ((173 / 400) - x) ^ 3 + (45060166 / 5177717) * (x - (173 / 800)) ^ 1 * ((173 / 400) - x) ^ 2 + (115273600 / 5177717) * (x - (173 / 800)) ^ 2 * ((173 / 400) - x) ^ 1 + (70348800 / 5177717) * (x - (173 / 800)) ^ 3 * ((173 / 400) - x) ^ 0 := by ring
  rw [e]; positivity

theorem sqrtA1_up (x : ℝ) (h1 : (0) ≤ x) (h2 : x ≤ (173 / 400)) : 0 ≤ (14039 / 320000) + (-99129 / 160000) * x ^ 1 + (473 / 200) * x ^ 2 + (-1) * x ^ 3 := by
  rcases le_total x (173 / 1600) with h3 | g1
  · exact sqrtA1_up_0 x h1 h3
  rcases le_total x (519 / 3200) with h4 | g2
  · exact sqrtA1_up_1 x g1 h4
  rcases le_total x (173 / 800) with h5 | g3
  · exact sqrtA1_up_2 x g2 h5
  exact sqrtA1_up_3 x g3 h2

theorem sqrtA2_lo_0 (x : ℝ) (h1 : (1081 / 2500) ≤ x) (h2 : x ≤ (1 / 2)) : 0 ≤ (-9521439 / 50000000) + (21776061 / 25000000) * x ^ 1 + (-682 / 625) * x ^ 2 + (1 / 4) * x ^ 3 := by
  have e1 : 0 ≤ x - (1081 / 2500) := sub_nonneg.2 h1
  have e2 : 0 ≤ (1 / 2) - x := sub_nonneg.2 h2
  have e : (-9521439 / 50000000) + (21776061 / 25000000) * x ^ 1 + (-682 / 625) * x ^ 2 + (1 / 4) * x ^ 3 = (37500000 / 4826809) * (x - (1081 / 2500)) ^ 0 * ((1 / 2) - x) ^ 3 + (183902500 / 4826809) * (x - (1081 / 2500)) ^ 1 * ((1 / 2) - x) ^ 2 + (802185691 / 19307236) * (x - (1081 / 2500)) ^ 2 * ((1 / 2) - x) ^ 1 + (55350625 / 4826809) * (x - (1081 / 2500)) ^ 3 * ((1 / 2) - x) ^ 0 := by ring
  rw [e]; positivity

theorem sqrtA2_lo (x : ℝ) (h1 : (1081 / 2500) ≤ x) (h2 : x ≤ (1 / 2)) : 0 ≤ (-9521439 / 50000000) + (21776061 / 25000000) * x ^ 1 + (-682 / 625) * x ^ 2 + (1 / 4) * x ^ 3 := by
  exact sqrtA2_lo_0 x h1 h2

theorem sqrtA2_up_0 (x : ℝ) (h1 : (1081 / 2500) ≤ x) (h2 : x ≤ (1 / 2)) : 0 ≤ (422743 / 1280000) + (-557529 / 640000) * x ^ 1 + (873 / 800) * x ^ 2 + (-1 / 4) * x ^ 3 := by
  have e1 : 0 ≤ x - (1081 / 2500) := sub_nonneg.2 h1
  have e2 : 0 ≤ (1 / 2) - x := sub_nonneg.2 h2
  have e : (422743 / 1280000) + (-557529 / 640000) * x ^ 1 + (873 / 800) * x ^ 2 + (-1 / 4) * x ^ 3 = (137406757669 / 308915776) * (x - (1081 / 2500)) ^ 0 * ((1 / 2) - x) ^ 3 + (203823452175 / 154457888) * (x - (1081 / 2500)) ^ 1 * ((1 / 2) - x) ^ 2 + (406578313125 / 308915776) * (x - (1081 / 2500)) ^ 2 * ((1 / 2) - x) ^ 1 + (34065234375 / 77228944) * (x - (1081 / 2500)) ^ 3 * ((1 / 2) - x) ^ 0 := by ring
  rw [e]; positivity

theorem sqrtA2_up (x : ℝ) (h1 : (1081 / 2500) ≤ x) (h2 : x ≤ (1 / 2)) : 0 ≤ (422743 / 1280000) + (-557529 / 640000) * x ^ 1 + (873 / 800) * x ^ 2 + (-1 / 4) * x ^ 3 := by
  exact sqrtA2_up_0 x h1 h2

theorem sqrtB_lo_0 (x : ℝ) (h1 : (0) ≤ x) (h2 : x ≤ (1 / 2)) : 0 ≤ (88561 / 25000000) + (11261061 / 12500000) * x ^ 1 + (-2103 / 1250) * x ^ 2 + (1 / 2) * x ^ 3 := by
  have e1 : 0 ≤ x - (0) := sub_nonneg.2 h1
  have e2 : 0 ≤ (1 / 2) - x := sub_nonneg.2 h2
  have e : (88561 / 25000000) + (11261061 / 12500000) * x ^ 1 + (-2103 / 1250) * x ^ 2 + (1 / 2) * x ^ 3 = (88561 / 3125000) * (x - (0)) ^ 0 * ((1 / 2) - x) ^ 3 + (1440843 / 390625) * (x - (0)) ^ 1 * ((1 / 2) - x) ^ 2 + (2454561 / 625000) * (x - (0)) ^ 2 * ((1 / 2) - x) ^ 1 + (1198561 / 1562500) * (x - (0)) ^ 3 * ((1 / 2) - x) ^ 0 := by ring
  rw [e]; positivity

theorem sqrtB_lo (x : ℝ) (h1 : (0) ≤ x) (h2 : x ≤ (1 / 2)) : 0 ≤ (88561 / 25000000) + (11261061 / 12500000) * x ^ 1 + (-2103 / 1250) * x ^ 2 + (1 / 2) * x ^ 3 := by
  exact sqrtB_lo_0 x h1 h2

theorem sqrtB_up_0 (x : ℝ) (h1 : (0) ≤ x) (h2 : x ≤ (1 / 4)) : 0 ≤ (87207 / 640000) + (-288329 / 320000) * x ^ 1 + (673 / 400) * x ^ 2 + (-1 / 2) * x ^ 3 := by
  have e1 : 0 ≤ x - (0) := sub_nonneg.2 h1
  have e2 : 0 ≤ (1 / 4) - x := sub_nonneg.2 h2
  have e : (87207 / 640000) + (-288329 / 320000) * x ^ 1 + (673 / 400) * x ^ 2 + (-1 / 2) * x ^ 3 = (87207 / 10000) * (x - (0)) ^ 0 * ((1 / 4) - x) ^ 3 + (234913 / 20000) * (x - (0)) ^ 1 * ((1 / 4) - x) ^ 2 + (2537 / 625) * (x - (0)) ^ 2 * ((1 / 4) - x) ^ 1 + (2137 / 4000) * (x - (0)) ^ 3 * ((1 / 4) - x) ^ 0 := by ring
  rw [e]; positivity

theorem sqrtB_up_1 (x : ℝ) (h1 : (1 / 4) ≤ x) (h2 : x ≤ (3 / 8)) : 0 ≤ (87207 / 640000) + (-288329 / 320000) * x ^ 1 + (673 / 400) * x ^ 2 + (-1 / 2) * x ^ 3 := by
  have e1 : 0 ≤ x - (1 / 4) := sub_nonneg.2 h1
  have e2 : 0 ≤ (3 / 8) - x := sub_nonneg.2 h2
  have e : (87207 / 640000) + (-288329 / 320000) * x ^ 1 + (673 / 400) * x ^ 2 + (-1 / 2) * x ^ 3 = (2137 / 500) * (x - (1 / 4)) ^ 0 * ((3 / 8) - x) ^ 3 + (14981 / 5000) * (x - (1 / 4)) ^ 1 * ((3 / 8) - x) ^ 2 + (2269 / 625) * (x - (1 / 4)) ^ 2 * ((3 / 8) - x) ^ 1 + (22041 / 5000) * (x - (1 / 4)) ^ 3 * ((3 / 8) - x) ^ 0 := by ring
  rw [e]; positivity

theorem sqrtB_up_2 (x : ℝ) (h1 : (3 / 8) ≤ x) (h2 : x ≤ (1 / 2)) : 0 ≤ (87207 / 640000) + (-288329 / 320000) * x ^ 1 + (673 / 400) * x ^ 2 + (-1 / 2) * x ^ 3 := by
  have e1 : 0 ≤ x - (3 / 8) := sub_nonneg.2 h1
  have e2 : 0 ≤ (1 / 2) - x := sub_nonneg.2 h2
  have e : (87207 / 640000) + (-288329 / 320000) * x ^ 1 + (673 / 400) * x ^ 2 + (-1 / 2) * x ^ 3 = (22041 / 5000) * (x - (3 / 8)) ^ 0 * ((1 / 2) - x) ^ 3 + (57047 / 2500) * (x - (3 / 8)) ^ 1 * ((1 / 2) - x) ^ 2 + (41373 / 1000) * (x - (3 / 8)) ^ 2 * ((1 / 2) - x) ^ 1 + (14039 / 625) * (x - (3 / 8)) ^ 3 * ((1 / 2) - x) ^ 0 := by ring
  rw [e]; positivity

theorem sqrtB_up (x : ℝ) (h1 : (0) ≤ x) (h2 : x ≤ (1 / 2)) : 0 ≤ (87207 / 640000) + (-288329 / 320000) * x ^ 1 + (673 / 400) * x ^ 2 + (-1 / 2) * x ^ 3 := by
  rcases le_total x (1 / 4) with h3 | g1
  · exact sqrtB_up_0 x h1 h3
  rcases le_total x (3 / 8) with h4 | g2
  · exact sqrtB_up_1 x g1 h4
  exact sqrtB_up_2 x g2 h2

end CCGL.MathFn
