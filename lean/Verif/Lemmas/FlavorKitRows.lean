import Verif.Spec.FlavorKit

/-! The rows of the FlavorKit tables as operator numbers and indices. -/

set_option autoImplicit false

namespace Verif

open Spec

/-- A row: operator in `fkOps`, FlavorKit indices, JMS indices. -/
abbrev FkRow := ℕ × List (Fin 3) × List (Fin 3)

def rowsPlain : List FkRow :=
  [(16, [1, 2, 1, 2], [2, 1, 2, 1]), (16, [2, 1, 2, 1], [1, 2, 1, 2]), (16, [0, 2, 0, 2], [2, 0, 2, 0]),
   (16, [2, 0, 2, 0], [0, 2, 0, 2]), (16, [0, 1, 0, 1], [1, 0, 1, 0]), (16, [1, 0, 1, 0], [0, 1, 0, 1]),
   (16, [0, 2, 1, 2], [2, 0, 2, 1]), (16, [2, 0, 2, 1], [0, 2, 1, 2]), (16, [0, 1, 2, 1], [1, 0, 1, 2]),
   (16, [1, 0, 1, 2], [0, 1, 2, 1]), (16, [0, 1, 0, 2], [1, 0, 2, 0]), (16, [1, 0, 2, 0], [0, 1, 0, 2]),
   (28, [1, 0, 0, 0], [0, 0, 0, 1]), (28, [1, 0, 1, 1], [1, 1, 0, 1]), (28, [1, 0, 2, 2], [2, 2, 0, 1]),
   (29, [1, 0, 0, 0], [0, 0, 0, 1]), (29, [1, 0, 1, 1], [1, 1, 0, 1]), (29, [1, 0, 2, 2], [2, 2, 0, 1]),
   (16, [1, 2, 0, 0], [0, 0, 2, 1]), (16, [1, 2, 1, 1], [1, 1, 2, 1]), (16, [1, 2, 2, 2], [2, 1, 2, 2]),
   (16, [2, 1, 0, 0], [0, 0, 1, 2]), (16, [2, 1, 1, 1], [1, 1, 1, 2]), (16, [2, 1, 2, 2], [1, 2, 2, 2]),
   (16, [0, 1, 2, 0], [0, 2, 1, 0]), (16, [0, 2, 1, 0], [0, 1, 2, 0]), (22, [1, 2, 0, 0], [0, 0, 2, 1]),
   (22, [1, 2, 1, 1], [1, 1, 2, 1]), (22, [1, 2, 2, 2], [2, 2, 2, 1]), (22, [2, 1, 0, 0], [0, 0, 1, 2]),
   (22, [2, 1, 1, 1], [1, 1, 1, 2]), (22, [2, 1, 2, 2], [2, 2, 1, 2]), (21, [1, 2, 0, 0], [0, 0, 2, 1]),
   (21, [1, 2, 1, 1], [1, 1, 2, 1]), (21, [1, 2, 2, 2], [2, 2, 2, 1]), (21, [2, 1, 0, 0], [0, 0, 1, 2]),
   (21, [2, 1, 1, 1], [1, 1, 1, 2]), (21, [2, 1, 2, 2], [2, 2, 1, 2]), (23, [1, 2, 0, 0], [0, 0, 2, 1]),
   (23, [1, 2, 1, 1], [1, 1, 2, 1]), (23, [1, 2, 2, 2], [2, 2, 2, 1]), (23, [2, 1, 0, 0], [0, 0, 1, 2]),
   (23, [2, 1, 1, 1], [1, 1, 1, 2]), (23, [2, 1, 2, 2], [2, 2, 1, 2]), (17, [1, 0, 2, 1], [0, 1, 1, 2]),
   (20, [1, 0, 2, 1], [0, 1, 1, 2]), (18, [1, 0, 2, 1], [0, 1, 1, 2]), (16, [0, 2, 0, 0], [0, 0, 2, 0]),
   (16, [0, 2, 1, 1], [1, 1, 2, 0]), (16, [0, 2, 2, 2], [2, 0, 2, 2]), (16, [2, 0, 0, 0], [0, 0, 0, 2]),
   (16, [2, 0, 1, 1], [0, 2, 1, 1]), (16, [2, 0, 2, 2], [0, 2, 2, 2]), (16, [1, 0, 2, 1], [0, 1, 1, 2]),
   (16, [1, 2, 0, 1], [1, 0, 2, 1]), (22, [0, 2, 0, 0], [0, 0, 2, 0]), (22, [0, 2, 1, 1], [1, 1, 2, 0]),
   (22, [0, 2, 2, 2], [2, 2, 2, 0]), (22, [2, 0, 0, 0], [0, 0, 0, 2]), (22, [2, 0, 1, 1], [1, 1, 0, 2]),
   (22, [2, 0, 2, 2], [2, 2, 0, 2]), (21, [0, 2, 0, 0], [0, 0, 2, 0]), (21, [0, 2, 1, 1], [1, 1, 2, 0]),
   (21, [0, 2, 2, 2], [2, 2, 2, 0]), (21, [2, 0, 0, 0], [0, 0, 0, 2]), (21, [2, 0, 1, 1], [1, 1, 0, 2]),
   (21, [2, 0, 2, 2], [2, 2, 0, 2]), (23, [0, 2, 0, 0], [0, 0, 2, 0]), (23, [0, 2, 1, 1], [1, 1, 2, 0]),
   (23, [0, 2, 2, 2], [2, 2, 2, 0]), (23, [2, 0, 0, 0], [0, 0, 0, 2]), (23, [2, 0, 1, 1], [1, 1, 0, 2]),
   (23, [2, 0, 2, 2], [2, 2, 0, 2]), (17, [2, 0, 1, 2], [0, 2, 2, 1]), (20, [2, 0, 1, 2], [0, 2, 2, 1]),
   (18, [2, 0, 1, 2], [0, 2, 2, 1]), (18, [2, 1, 0, 2], [1, 2, 2, 0]), (16, [0, 1, 0, 0], [0, 0, 1, 0]),
   (16, [0, 1, 1, 1], [1, 0, 1, 1]), (16, [0, 1, 2, 2], [1, 0, 2, 2]), (16, [1, 0, 0, 0], [0, 0, 0, 1]),
   (16, [1, 0, 1, 1], [0, 1, 1, 1]), (16, [1, 0, 2, 2], [0, 1, 2, 2]), (16, [2, 0, 1, 2], [0, 2, 2, 1]),
   (16, [2, 1, 0, 2], [1, 2, 2, 0]), (22, [0, 1, 0, 0], [0, 0, 1, 0]), (22, [0, 1, 1, 1], [1, 1, 1, 0]),
   (22, [0, 1, 2, 2], [2, 2, 1, 0]), (22, [1, 0, 0, 0], [0, 0, 0, 1]), (22, [1, 0, 1, 1], [1, 1, 0, 1]),
   (22, [1, 0, 2, 2], [2, 2, 0, 1]), (21, [0, 1, 0, 0], [0, 0, 1, 0]), (21, [0, 1, 1, 1], [1, 1, 1, 0]),
   (21, [0, 1, 2, 2], [2, 2, 1, 0]), (21, [1, 0, 0, 0], [0, 0, 0, 1]), (21, [1, 0, 1, 1], [1, 1, 0, 1]),
   (21, [1, 0, 2, 2], [2, 2, 0, 1]), (23, [0, 1, 0, 0], [0, 0, 1, 0]), (23, [0, 1, 1, 1], [1, 1, 1, 0]),
   (23, [0, 1, 2, 2], [2, 2, 1, 0]), (23, [1, 0, 0, 0], [0, 0, 0, 1]), (23, [1, 0, 1, 1], [1, 1, 0, 1]),
   (23, [1, 0, 2, 2], [2, 2, 0, 1]), (22, [1, 2, 0, 1], [1, 0, 2, 1]), (22, [2, 1, 1, 0], [0, 1, 1, 2]),
   (21, [1, 2, 0, 1], [1, 0, 2, 1]), (21, [2, 1, 1, 0], [0, 1, 1, 2]), (23, [1, 2, 0, 1], [1, 0, 2, 1]),
   (23, [2, 1, 1, 0], [0, 1, 1, 2]), (25, [2, 1, 0, 1], [1, 2, 1, 0]), (22, [2, 1, 0, 1], [1, 0, 1, 2]),
   (22, [1, 2, 1, 0], [0, 1, 2, 1]), (21, [2, 1, 0, 1], [1, 0, 1, 2]), (21, [1, 2, 1, 0], [0, 1, 2, 1]),
   (23, [2, 1, 0, 1], [1, 0, 1, 2]), (23, [1, 2, 1, 0], [0, 1, 2, 1]), (22, [1, 2, 0, 2], [2, 0, 2, 1]),
   (22, [2, 1, 2, 0], [0, 2, 1, 2]), (21, [1, 2, 0, 2], [2, 0, 2, 1]), (21, [2, 1, 2, 0], [0, 2, 1, 2]),
   (23, [1, 2, 0, 2], [2, 0, 2, 1]), (23, [2, 1, 2, 0], [0, 2, 1, 2]), (25, [2, 1, 0, 2], [1, 2, 2, 0]),
   (22, [2, 1, 0, 2], [2, 0, 1, 2]), (22, [1, 2, 2, 0], [0, 2, 2, 1]), (21, [2, 1, 0, 2], [2, 0, 1, 2]),
   (21, [1, 2, 2, 0], [0, 2, 2, 1]), (23, [2, 1, 0, 2], [2, 0, 1, 2]), (23, [1, 2, 2, 0], [0, 2, 2, 1]),
   (22, [1, 2, 1, 2], [2, 1, 2, 1]), (22, [2, 1, 2, 1], [1, 2, 1, 2]), (21, [1, 2, 1, 2], [2, 1, 2, 1]),
   (21, [2, 1, 2, 1], [1, 2, 1, 2]), (23, [1, 2, 1, 2], [2, 1, 2, 1]), (23, [2, 1, 2, 1], [1, 2, 1, 2]),
   (25, [2, 1, 1, 2], [1, 2, 2, 1]), (22, [2, 1, 1, 2], [2, 1, 1, 2]), (22, [1, 2, 2, 1], [1, 2, 2, 1]),
   (21, [2, 1, 1, 2], [2, 1, 1, 2]), (21, [1, 2, 2, 1], [1, 2, 2, 1]), (23, [2, 1, 1, 2], [2, 1, 1, 2]),
   (23, [1, 2, 2, 1], [1, 2, 2, 1]), (22, [0, 2, 0, 1], [1, 0, 2, 0]), (22, [2, 0, 1, 0], [0, 1, 0, 2]),
   (21, [0, 2, 0, 1], [1, 0, 2, 0]), (21, [2, 0, 1, 0], [0, 1, 0, 2]), (23, [0, 2, 0, 1], [1, 0, 2, 0]),
   (23, [2, 0, 1, 0], [0, 1, 0, 2]), (25, [2, 0, 0, 1], [0, 2, 1, 0]), (22, [2, 0, 0, 1], [1, 0, 0, 2]),
   (22, [0, 2, 1, 0], [0, 1, 2, 0]), (21, [2, 0, 0, 1], [1, 0, 0, 2]), (21, [0, 2, 1, 0], [0, 1, 2, 0]),
   (23, [2, 0, 0, 1], [1, 0, 0, 2]), (23, [0, 2, 1, 0], [0, 1, 2, 0]), (22, [0, 2, 0, 2], [2, 0, 2, 0]),
   (22, [2, 0, 2, 0], [0, 2, 0, 2]), (21, [0, 2, 0, 2], [2, 0, 2, 0]), (21, [2, 0, 2, 0], [0, 2, 0, 2]),
   (23, [0, 2, 0, 2], [2, 0, 2, 0]), (23, [2, 0, 2, 0], [0, 2, 0, 2]), (25, [2, 0, 0, 2], [0, 2, 2, 0]),
   (22, [2, 0, 0, 2], [2, 0, 0, 2]), (22, [0, 2, 2, 0], [0, 2, 2, 0]), (21, [2, 0, 0, 2], [2, 0, 0, 2]),
   (21, [0, 2, 2, 0], [0, 2, 2, 0]), (23, [2, 0, 0, 2], [2, 0, 0, 2]), (23, [0, 2, 2, 0], [0, 2, 2, 0]),
   (22, [0, 2, 1, 2], [2, 1, 2, 0]), (22, [2, 0, 2, 1], [1, 2, 0, 2]), (21, [0, 2, 1, 2], [2, 1, 2, 0]),
   (21, [2, 0, 2, 1], [1, 2, 0, 2]), (23, [0, 2, 1, 2], [2, 1, 2, 0]), (23, [2, 0, 2, 1], [1, 2, 0, 2]),
   (25, [2, 0, 1, 2], [0, 2, 2, 1]), (22, [2, 0, 1, 2], [2, 1, 0, 2]), (22, [0, 2, 2, 1], [1, 2, 2, 0]),
   (21, [2, 0, 1, 2], [2, 1, 0, 2]), (21, [0, 2, 2, 1], [1, 2, 2, 0]), (23, [2, 0, 1, 2], [2, 1, 0, 2]),
   (23, [0, 2, 2, 1], [1, 2, 2, 0]), (25, [1, 0, 0, 1], [0, 1, 1, 0]), (22, [1, 0, 0, 1], [1, 0, 0, 1]),
   (22, [0, 1, 1, 0], [0, 1, 1, 0]), (21, [1, 0, 0, 1], [1, 0, 0, 1]), (21, [0, 1, 1, 0], [0, 1, 1, 0]),
   (23, [1, 0, 0, 1], [1, 0, 0, 1]), (23, [0, 1, 1, 0], [0, 1, 1, 0]), (22, [0, 1, 0, 1], [1, 0, 1, 0]),
   (22, [1, 0, 1, 0], [0, 1, 0, 1]), (21, [0, 1, 0, 1], [1, 0, 1, 0]), (21, [1, 0, 1, 0], [0, 1, 0, 1]),
   (23, [0, 1, 0, 1], [1, 0, 1, 0]), (23, [1, 0, 1, 0], [0, 1, 0, 1]), (25, [1, 0, 0, 2], [0, 1, 2, 0]),
   (22, [1, 0, 0, 2], [2, 0, 0, 1]), (22, [0, 1, 2, 0], [0, 2, 1, 0]), (21, [1, 0, 0, 2], [2, 0, 0, 1]),
   (21, [0, 1, 2, 0], [0, 2, 1, 0]), (23, [1, 0, 0, 2], [2, 0, 0, 1]), (23, [0, 1, 2, 0], [0, 2, 1, 0]),
   (22, [0, 1, 0, 2], [2, 0, 1, 0]), (22, [1, 0, 2, 0], [0, 2, 0, 1]), (21, [0, 1, 0, 2], [2, 0, 1, 0]),
   (21, [1, 0, 2, 0], [0, 2, 0, 1]), (23, [0, 1, 0, 2], [2, 0, 1, 0]), (23, [1, 0, 2, 0], [0, 2, 0, 1]),
   (25, [1, 0, 1, 2], [0, 1, 2, 1]), (22, [1, 0, 1, 2], [2, 1, 0, 1]), (22, [0, 1, 2, 1], [1, 2, 1, 0]),
   (21, [1, 0, 1, 2], [2, 1, 0, 1]), (21, [0, 1, 2, 1], [1, 2, 1, 0]), (23, [1, 0, 1, 2], [2, 1, 0, 1]),
   (23, [0, 1, 2, 1], [1, 2, 1, 0]), (22, [0, 1, 1, 2], [2, 1, 1, 0]), (22, [1, 0, 2, 1], [1, 2, 0, 1]),
   (21, [0, 1, 1, 2], [2, 1, 1, 0]), (21, [1, 0, 2, 1], [1, 2, 0, 1]), (23, [0, 1, 1, 2], [2, 1, 1, 0]),
   (23, [1, 0, 2, 1], [1, 2, 0, 1]), (1, [0, 0, 1, 0], [0, 0, 0, 1]), (1, [1, 1, 1, 0], [0, 1, 1, 1]),
   (1, [2, 2, 1, 0], [0, 1, 2, 2]), (3, [0, 0, 1, 0], [0, 0, 0, 1]), (3, [1, 1, 1, 0], [0, 1, 1, 1]),
   (3, [2, 2, 1, 0], [0, 1, 2, 2]), (2, [0, 0, 1, 0], [0, 0, 0, 1]), (2, [1, 1, 1, 0], [1, 1, 0, 1]),
   (2, [2, 2, 1, 0], [2, 2, 0, 1]), (2, [1, 0, 0, 0], [0, 1, 0, 0]), (2, [1, 0, 1, 1], [0, 1, 1, 1]),
   (2, [1, 0, 2, 2], [0, 1, 2, 2]), (2, [2, 1, 0, 2], [1, 2, 2, 0]), (2, [2, 0, 1, 2], [0, 2, 2, 1]),
   (0, [0, 0, 1, 0], [0, 0, 0, 1]), (0, [1, 1, 1, 0], [0, 1, 1, 1]), (0, [2, 2, 1, 0], [0, 1, 2, 2]),
   (0, [0, 0, 0, 1], [0, 0, 1, 0]), (0, [1, 1, 0, 1], [1, 0, 1, 1]), (0, [2, 2, 0, 1], [1, 0, 2, 2]),
   (0, [2, 1, 0, 2], [1, 2, 2, 0]), (0, [2, 0, 1, 2], [0, 2, 2, 1]), (7, [1, 0, 0, 0], [0, 1, 0, 0]),
   (7, [1, 0, 1, 1], [0, 1, 1, 1]), (7, [1, 0, 2, 2], [0, 1, 2, 2]), (9, [1, 0, 0, 0], [0, 1, 0, 0]),
   (9, [1, 0, 1, 1], [0, 1, 1, 1]), (9, [1, 0, 2, 2], [0, 1, 2, 2]), (8, [1, 0, 0, 0], [0, 1, 0, 0]),
   (8, [1, 0, 1, 1], [0, 1, 1, 1]), (8, [1, 0, 2, 2], [0, 1, 2, 2]), (4, [1, 0, 0, 0], [0, 1, 0, 0]),
   (4, [1, 0, 1, 1], [0, 1, 1, 1]), (4, [1, 0, 2, 2], [0, 1, 2, 2]), (4, [0, 1, 0, 0], [1, 0, 0, 0]),
   (4, [0, 1, 1, 1], [1, 0, 1, 1]), (4, [0, 1, 2, 2], [1, 0, 2, 2]), (5, [1, 0, 0, 0], [0, 1, 0, 0]),
   (5, [1, 0, 1, 1], [0, 1, 1, 1]), (5, [1, 0, 2, 2], [0, 1, 2, 2]), (5, [0, 1, 0, 0], [1, 0, 0, 0]),
   (5, [0, 1, 1, 1], [1, 0, 1, 1]), (5, [0, 1, 2, 2], [1, 0, 2, 2]), (6, [1, 0, 0, 0], [0, 1, 0, 0]),
   (6, [1, 0, 1, 1], [0, 1, 1, 1]), (6, [1, 0, 2, 2], [0, 1, 2, 2]), (6, [0, 1, 0, 0], [1, 0, 0, 0]),
   (6, [0, 1, 1, 1], [1, 0, 1, 1]), (6, [0, 1, 2, 2], [1, 0, 2, 2]), (25, [0, 0, 1, 0], [0, 0, 0, 1]),
   (25, [1, 1, 1, 0], [1, 1, 0, 1]), (25, [2, 2, 1, 0], [2, 2, 0, 1]), (13, [1, 0, 0, 0], [0, 1, 0, 0]),
   (13, [1, 0, 1, 1], [0, 1, 1, 1]), (15, [1, 0, 0, 0], [0, 1, 0, 0]), (15, [1, 0, 1, 1], [0, 1, 1, 1]),
   (14, [1, 0, 0, 0], [0, 1, 0, 0]), (14, [1, 0, 1, 1], [0, 1, 1, 1]), (10, [1, 0, 0, 0], [0, 1, 0, 0]),
   (10, [1, 0, 1, 1], [0, 1, 1, 1]), (10, [0, 1, 0, 0], [1, 0, 0, 0]), (10, [0, 1, 1, 1], [1, 0, 1, 1]),
   (11, [1, 0, 0, 0], [0, 1, 0, 0]), (11, [1, 0, 1, 1], [0, 1, 1, 1]), (11, [0, 1, 0, 0], [1, 0, 0, 0]),
   (11, [0, 1, 1, 1], [1, 0, 1, 1]), (12, [1, 0, 0, 0], [0, 1, 0, 0]), (12, [1, 0, 1, 1], [0, 1, 1, 1]),
   (12, [0, 1, 0, 0], [1, 0, 0, 0]), (12, [0, 1, 1, 1], [1, 0, 1, 1]), (1, [0, 0, 2, 0], [0, 0, 0, 2]),
   (1, [2, 2, 2, 0], [0, 2, 2, 2]), (3, [0, 0, 2, 0], [0, 0, 0, 2]), (3, [2, 2, 2, 0], [0, 2, 2, 2]),
   (2, [0, 0, 2, 0], [0, 0, 0, 2]), (2, [1, 1, 2, 0], [1, 1, 0, 2]), (2, [2, 2, 2, 0], [2, 2, 0, 2]),
   (2, [2, 0, 0, 0], [0, 2, 0, 0]), (2, [2, 0, 1, 1], [0, 2, 1, 1]), (2, [2, 0, 2, 2], [0, 2, 2, 2]),
   (2, [1, 0, 2, 1], [0, 1, 1, 2]), (0, [0, 0, 2, 0], [0, 0, 0, 2]), (0, [1, 1, 2, 0], [0, 2, 1, 1]),
   (0, [2, 2, 2, 0], [0, 2, 2, 2]), (0, [0, 0, 0, 2], [0, 0, 2, 0]), (0, [1, 1, 0, 2], [1, 1, 2, 0]),
   (0, [2, 2, 0, 2], [2, 0, 2, 2]), (0, [1, 2, 0, 1], [1, 0, 2, 1]), (0, [1, 0, 2, 1], [0, 1, 1, 2]),
   (7, [2, 0, 0, 0], [0, 2, 0, 0]), (7, [2, 0, 1, 1], [0, 2, 1, 1]), (7, [2, 0, 2, 2], [0, 2, 2, 2]),
   (9, [2, 0, 0, 0], [0, 2, 0, 0]), (9, [2, 0, 1, 1], [0, 2, 1, 1]), (9, [2, 0, 2, 2], [0, 2, 2, 2]),
   (8, [2, 0, 0, 0], [0, 2, 0, 0]), (8, [2, 0, 1, 1], [0, 2, 1, 1]), (8, [2, 0, 2, 2], [0, 2, 2, 2]),
   (4, [2, 0, 0, 0], [0, 2, 0, 0]), (4, [2, 0, 1, 1], [0, 2, 1, 1]), (4, [2, 0, 2, 2], [0, 2, 2, 2]),
   (4, [0, 2, 0, 0], [2, 0, 0, 0]), (4, [0, 2, 1, 1], [2, 0, 1, 1]), (4, [0, 2, 2, 2], [2, 0, 2, 2]),
   (5, [2, 0, 0, 0], [0, 2, 0, 0]), (5, [2, 0, 1, 1], [0, 2, 1, 1]), (5, [2, 0, 2, 2], [0, 2, 2, 2]),
   (5, [0, 2, 0, 0], [2, 0, 0, 0]), (5, [0, 2, 1, 1], [2, 0, 1, 1]), (5, [0, 2, 2, 2], [2, 0, 2, 2]),
   (6, [2, 0, 0, 0], [0, 2, 0, 0]), (6, [2, 0, 1, 1], [0, 2, 1, 1]), (6, [2, 0, 2, 2], [0, 2, 2, 2]),
   (6, [0, 2, 0, 0], [2, 0, 0, 0]), (6, [0, 2, 1, 1], [2, 0, 1, 1]), (6, [0, 2, 2, 2], [2, 0, 2, 2]),
   (25, [0, 0, 2, 0], [0, 0, 0, 2]), (25, [1, 1, 2, 0], [1, 1, 0, 2]), (25, [2, 2, 2, 0], [2, 2, 0, 2]),
   (13, [2, 0, 0, 0], [0, 2, 0, 0]), (13, [2, 0, 1, 1], [0, 2, 1, 1]), (15, [2, 0, 0, 0], [0, 2, 0, 0]),
   (15, [2, 0, 1, 1], [0, 2, 1, 1]), (14, [2, 0, 0, 0], [0, 2, 0, 0]), (14, [2, 0, 1, 1], [0, 2, 1, 1]),
   (10, [2, 0, 0, 0], [0, 2, 0, 0]), (10, [2, 0, 1, 1], [0, 2, 1, 1]), (10, [0, 2, 0, 0], [2, 0, 0, 0]),
   (10, [0, 2, 1, 1], [2, 0, 1, 1]), (11, [2, 0, 0, 0], [0, 2, 0, 0]), (11, [2, 0, 1, 1], [0, 2, 1, 1]),
   (11, [0, 2, 0, 0], [2, 0, 0, 0]), (11, [0, 2, 1, 1], [2, 0, 1, 1]), (12, [2, 0, 0, 0], [0, 2, 0, 0]),
   (12, [2, 0, 1, 1], [0, 2, 1, 1]), (12, [0, 2, 0, 0], [2, 0, 0, 0]), (12, [0, 2, 1, 1], [2, 0, 1, 1]),
   (0, [0, 0, 1, 2], [0, 0, 2, 1]), (0, [1, 1, 1, 2], [1, 1, 2, 1]), (0, [2, 2, 1, 2], [2, 1, 2, 2]),
   (0, [0, 0, 2, 1], [0, 0, 1, 2]), (0, [1, 1, 2, 1], [1, 1, 1, 2]), (0, [2, 2, 2, 1], [1, 2, 2, 2]),
   (0, [0, 1, 2, 0], [0, 2, 1, 0]), (0, [0, 2, 1, 0], [0, 1, 2, 0]), (4, [1, 2, 0, 0], [2, 1, 0, 0]),
   (4, [1, 2, 1, 1], [2, 1, 1, 1]), (4, [1, 2, 2, 2], [2, 1, 2, 2]), (4, [2, 1, 0, 0], [1, 2, 0, 0]),
   (4, [2, 1, 1, 1], [1, 2, 1, 1]), (4, [2, 1, 2, 2], [1, 2, 2, 2]), (5, [1, 2, 0, 0], [2, 1, 0, 0]),
   (5, [1, 2, 1, 1], [2, 1, 1, 1]), (5, [1, 2, 2, 2], [2, 1, 2, 2]), (5, [2, 1, 0, 0], [1, 2, 0, 0]),
   (5, [2, 1, 1, 1], [1, 2, 1, 1]), (5, [2, 1, 2, 2], [1, 2, 2, 2]), (6, [1, 2, 0, 0], [2, 1, 0, 0]),
   (6, [1, 2, 1, 1], [2, 1, 1, 1]), (6, [1, 2, 2, 2], [2, 1, 2, 2]), (6, [2, 1, 0, 0], [1, 2, 0, 0]),
   (6, [2, 1, 1, 1], [1, 2, 1, 1]), (6, [2, 1, 2, 2], [1, 2, 2, 2]), (10, [1, 2, 0, 0], [2, 1, 0, 0]),
   (10, [1, 2, 1, 1], [2, 1, 1, 1]), (10, [2, 1, 0, 0], [1, 2, 0, 0]), (10, [2, 1, 1, 1], [1, 2, 1, 1]),
   (11, [1, 2, 0, 0], [2, 1, 0, 0]), (11, [1, 2, 1, 1], [2, 1, 1, 1]), (11, [2, 1, 0, 0], [1, 2, 0, 0]),
   (11, [2, 1, 1, 1], [1, 2, 1, 1]), (12, [1, 2, 0, 0], [2, 1, 0, 0]), (12, [1, 2, 1, 1], [2, 1, 1, 1]),
   (12, [2, 1, 0, 0], [1, 2, 0, 0]), (12, [2, 1, 1, 1], [1, 2, 1, 1]), (0, [0, 2, 0, 2], [2, 0, 2, 0]),
   (0, [2, 0, 2, 0], [0, 2, 0, 2]), (0, [1, 2, 1, 2], [2, 1, 2, 1]), (0, [2, 1, 2, 1], [1, 2, 1, 2]),
   (0, [0, 1, 0, 1], [1, 0, 1, 0]), (0, [1, 0, 1, 0], [0, 1, 0, 1]), (0, [0, 1, 2, 1], [1, 0, 1, 2]),
   (0, [1, 0, 1, 2], [0, 1, 2, 1]), (0, [0, 1, 0, 2], [1, 0, 2, 0]), (0, [1, 0, 2, 0], [0, 1, 0, 2]),
   (0, [0, 2, 1, 2], [2, 0, 2, 1]), (0, [2, 0, 2, 1], [0, 2, 1, 2]), (34, [1, 2], [2, 1]), (34, [2, 1], [1, 2]),
   (34, [0, 2], [2, 0]), (34, [2, 0], [0, 2]), (34, [0, 1], [1, 0]), (34, [1, 0], [0, 1]), (35, [1, 2], [2, 1]),
   (35, [2, 1], [1, 2]), (35, [0, 2], [2, 0]), (35, [2, 0], [0, 2]), (35, [0, 1], [1, 0]), (35, [1, 0], [0, 1])]

def rowsConj : List FkRow :=
  [(17, [1, 2, 1, 2], [1, 2, 1, 2]), (20, [1, 2, 1, 2], [1, 2, 1, 2]), (18, [1, 2, 1, 2], [1, 2, 1, 2]),
   (17, [0, 2, 0, 2], [0, 2, 0, 2]), (20, [0, 2, 0, 2], [0, 2, 0, 2]), (18, [0, 2, 0, 2], [0, 2, 0, 2]),
   (17, [0, 1, 0, 1], [0, 1, 0, 1]), (20, [0, 1, 0, 1], [0, 1, 0, 1]), (18, [0, 1, 0, 1], [0, 1, 0, 1]),
   (17, [0, 2, 1, 2], [0, 2, 1, 2]), (20, [0, 2, 1, 2], [0, 2, 1, 2]), (18, [0, 2, 1, 2], [0, 2, 1, 2]),
   (18, [1, 2, 0, 2], [1, 2, 0, 2]), (17, [0, 1, 2, 1], [0, 1, 2, 1]), (20, [0, 1, 2, 1], [0, 1, 2, 1]),
   (18, [0, 1, 2, 1], [0, 1, 2, 1]), (18, [1, 2, 1, 0], [1, 2, 1, 0]), (17, [0, 1, 0, 2], [0, 1, 0, 2]),
   (20, [0, 1, 0, 2], [0, 1, 0, 2]), (18, [0, 1, 0, 2], [0, 1, 0, 2]), (18, [0, 2, 0, 1], [0, 2, 0, 1]),
   (32, [2, 0, 0, 0], [0, 0, 2, 0]), (32, [2, 0, 1, 0], [1, 0, 2, 0]), (32, [2, 0, 2, 0], [2, 0, 2, 0]),
   (33, [2, 0, 0, 0], [0, 0, 2, 0]), (33, [2, 0, 1, 0], [1, 0, 2, 0]), (33, [2, 0, 2, 0], [2, 0, 2, 0]),
   (30, [2, 0, 0, 0], [0, 0, 2, 0]), (30, [2, 0, 1, 0], [1, 0, 2, 0]), (30, [2, 0, 2, 0], [2, 0, 2, 0]),
   (31, [2, 0, 0, 0], [0, 0, 2, 0]), (31, [2, 0, 1, 0], [1, 0, 2, 0]), (31, [2, 0, 2, 0], [2, 0, 2, 0]),
   (32, [2, 1, 0, 0], [0, 0, 2, 1]), (32, [2, 1, 1, 0], [1, 0, 2, 1]), (32, [2, 1, 2, 0], [2, 0, 2, 1]),
   (33, [2, 1, 0, 0], [0, 0, 2, 1]), (33, [2, 1, 1, 0], [1, 0, 2, 1]), (33, [2, 1, 2, 0], [2, 0, 2, 1]),
   (30, [2, 1, 0, 0], [0, 0, 2, 1]), (30, [2, 1, 1, 0], [1, 0, 2, 1]), (30, [2, 1, 2, 0], [2, 0, 2, 1]),
   (31, [2, 1, 0, 0], [0, 0, 2, 1]), (31, [2, 1, 1, 0], [1, 0, 2, 1]), (31, [2, 1, 2, 0], [2, 0, 2, 1]),
   (32, [1, 0, 0, 0], [0, 0, 1, 0]), (32, [1, 0, 1, 0], [1, 0, 1, 0]), (32, [1, 0, 2, 0], [2, 0, 1, 0]),
   (33, [1, 0, 0, 0], [0, 0, 1, 0]), (33, [1, 0, 1, 0], [1, 0, 1, 0]), (33, [1, 0, 2, 0], [2, 0, 1, 0]),
   (30, [1, 0, 0, 0], [0, 0, 1, 0]), (30, [1, 0, 1, 0], [1, 0, 1, 0]), (30, [1, 0, 2, 0], [2, 0, 1, 0]),
   (31, [1, 0, 0, 0], [0, 0, 1, 0]), (31, [1, 0, 1, 0], [1, 0, 1, 0]), (31, [1, 0, 2, 0], [2, 0, 1, 0]),
   (32, [1, 1, 0, 0], [0, 0, 1, 1]), (32, [1, 1, 1, 0], [1, 0, 1, 1]), (32, [1, 1, 2, 0], [2, 0, 1, 1]),
   (33, [1, 1, 0, 0], [0, 0, 1, 1]), (33, [1, 1, 1, 0], [1, 0, 1, 1]), (33, [1, 1, 2, 0], [2, 0, 1, 1]),
   (30, [1, 1, 0, 0], [0, 0, 1, 1]), (30, [1, 1, 1, 0], [1, 0, 1, 1]), (30, [1, 1, 2, 0], [2, 0, 1, 1]),
   (31, [1, 1, 0, 0], [0, 0, 1, 1]), (31, [1, 1, 1, 0], [1, 0, 1, 1]), (31, [1, 1, 2, 0], [2, 0, 1, 1]),
   (32, [0, 0, 0, 0], [0, 0, 0, 0]), (32, [0, 0, 1, 0], [1, 0, 0, 0]), (32, [0, 0, 2, 0], [2, 0, 0, 0]),
   (33, [0, 0, 0, 0], [0, 0, 0, 0]), (33, [0, 0, 1, 0], [1, 0, 0, 0]), (33, [0, 0, 2, 0], [2, 0, 0, 0]),
   (30, [0, 0, 0, 0], [0, 0, 0, 0]), (30, [0, 0, 1, 0], [1, 0, 0, 0]), (30, [0, 0, 2, 0], [2, 0, 0, 0]),
   (31, [0, 0, 0, 0], [0, 0, 0, 0]), (31, [0, 0, 1, 0], [1, 0, 0, 0]), (31, [0, 0, 2, 0], [2, 0, 0, 0]),
   (32, [0, 1, 0, 0], [0, 0, 0, 1]), (32, [0, 1, 1, 0], [1, 0, 0, 1]), (32, [0, 1, 2, 0], [2, 0, 0, 1]),
   (33, [0, 1, 0, 0], [0, 0, 0, 1]), (33, [0, 1, 1, 0], [1, 0, 0, 1]), (33, [0, 1, 2, 0], [2, 0, 0, 1]),
   (30, [0, 1, 0, 0], [0, 0, 0, 1]), (30, [0, 1, 1, 0], [1, 0, 0, 1]), (30, [0, 1, 2, 0], [2, 0, 0, 1]),
   (31, [0, 1, 0, 0], [0, 0, 0, 1]), (31, [0, 1, 1, 0], [1, 0, 0, 1]), (31, [0, 1, 2, 0], [2, 0, 0, 1]),
   (32, [2, 0, 0, 1], [0, 1, 2, 0]), (32, [2, 0, 1, 1], [1, 1, 2, 0]), (32, [2, 0, 2, 1], [2, 1, 2, 0]),
   (33, [2, 0, 0, 1], [0, 1, 2, 0]), (33, [2, 0, 1, 1], [1, 1, 2, 0]), (33, [2, 0, 2, 1], [2, 1, 2, 0]),
   (30, [2, 0, 0, 1], [0, 1, 2, 0]), (30, [2, 0, 1, 1], [1, 1, 2, 0]), (30, [2, 0, 2, 1], [2, 1, 2, 0]),
   (31, [2, 0, 0, 1], [0, 1, 2, 0]), (31, [2, 0, 1, 1], [1, 1, 2, 0]), (31, [2, 0, 2, 1], [2, 1, 2, 0]),
   (32, [2, 1, 0, 1], [0, 1, 2, 1]), (32, [2, 1, 1, 1], [1, 1, 2, 1]), (32, [2, 1, 2, 1], [2, 1, 2, 1]),
   (33, [2, 1, 0, 1], [0, 1, 2, 1]), (33, [2, 1, 1, 1], [1, 1, 2, 1]), (33, [2, 1, 2, 1], [2, 1, 2, 1]),
   (30, [2, 1, 0, 1], [0, 1, 2, 1]), (30, [2, 1, 1, 1], [1, 1, 2, 1]), (30, [2, 1, 2, 1], [2, 1, 2, 1]),
   (31, [2, 1, 0, 1], [0, 1, 2, 1]), (31, [2, 1, 1, 1], [1, 1, 2, 1]), (31, [2, 1, 2, 1], [2, 1, 2, 1]),
   (32, [1, 0, 0, 1], [0, 1, 1, 0]), (32, [1, 0, 1, 1], [1, 1, 1, 0]), (32, [1, 0, 2, 1], [2, 1, 1, 0]),
   (33, [1, 0, 0, 1], [0, 1, 1, 0]), (33, [1, 0, 1, 1], [1, 1, 1, 0]), (33, [1, 0, 2, 1], [2, 1, 1, 0]),
   (30, [1, 0, 0, 1], [0, 1, 1, 0]), (30, [1, 0, 1, 1], [1, 1, 1, 0]), (30, [1, 0, 2, 1], [2, 1, 1, 0]),
   (31, [1, 0, 0, 1], [0, 1, 1, 0]), (31, [1, 0, 1, 1], [1, 1, 1, 0]), (31, [1, 0, 2, 1], [2, 1, 1, 0]),
   (32, [1, 1, 0, 1], [0, 1, 1, 1]), (32, [1, 1, 1, 1], [1, 1, 1, 1]), (32, [1, 1, 2, 1], [2, 1, 1, 1]),
   (33, [1, 1, 0, 1], [0, 1, 1, 1]), (33, [1, 1, 1, 1], [1, 1, 1, 1]), (33, [1, 1, 2, 1], [2, 1, 1, 1]),
   (30, [1, 1, 0, 1], [0, 1, 1, 1]), (30, [1, 1, 1, 1], [1, 1, 1, 1]), (30, [1, 1, 2, 1], [2, 1, 1, 1]),
   (31, [1, 1, 0, 1], [0, 1, 1, 1]), (31, [1, 1, 1, 1], [1, 1, 1, 1]), (31, [1, 1, 2, 1], [2, 1, 1, 1]),
   (32, [0, 0, 0, 1], [0, 1, 0, 0]), (32, [0, 0, 1, 1], [1, 1, 0, 0]), (32, [0, 0, 2, 1], [2, 1, 0, 0]),
   (33, [0, 0, 0, 1], [0, 1, 0, 0]), (33, [0, 0, 1, 1], [1, 1, 0, 0]), (33, [0, 0, 2, 1], [2, 1, 0, 0]),
   (30, [0, 0, 0, 1], [0, 1, 0, 0]), (30, [0, 0, 1, 1], [1, 1, 0, 0]), (30, [0, 0, 2, 1], [2, 1, 0, 0]),
   (31, [0, 0, 0, 1], [0, 1, 0, 0]), (31, [0, 0, 1, 1], [1, 1, 0, 0]), (31, [0, 0, 2, 1], [2, 1, 0, 0]),
   (32, [0, 1, 0, 1], [0, 1, 0, 1]), (32, [0, 1, 1, 1], [1, 1, 0, 1]), (32, [0, 1, 2, 1], [2, 1, 0, 1]),
   (33, [0, 1, 0, 1], [0, 1, 0, 1]), (33, [0, 1, 1, 1], [1, 1, 0, 1]), (33, [0, 1, 2, 1], [2, 1, 0, 1]),
   (30, [0, 1, 0, 1], [0, 1, 0, 1]), (30, [0, 1, 1, 1], [1, 1, 0, 1]), (30, [0, 1, 2, 1], [2, 1, 0, 1]),
   (31, [0, 1, 0, 1], [0, 1, 0, 1]), (31, [0, 1, 1, 1], [1, 1, 0, 1]), (31, [0, 1, 2, 1], [2, 1, 0, 1]),
   (32, [2, 0, 0, 2], [0, 2, 2, 0]), (32, [2, 0, 1, 2], [1, 2, 2, 0]), (32, [2, 0, 2, 2], [2, 2, 2, 0]),
   (33, [2, 0, 0, 2], [0, 2, 2, 0]), (33, [2, 0, 1, 2], [1, 2, 2, 0]), (33, [2, 0, 2, 2], [2, 2, 2, 0]),
   (30, [2, 0, 0, 2], [0, 2, 2, 0]), (30, [2, 0, 1, 2], [1, 2, 2, 0]), (30, [2, 0, 2, 2], [2, 2, 2, 0]),
   (31, [2, 0, 0, 2], [0, 2, 2, 0]), (31, [2, 0, 1, 2], [1, 2, 2, 0]), (31, [2, 0, 2, 2], [2, 2, 2, 0]),
   (32, [2, 1, 0, 2], [0, 2, 2, 1]), (32, [2, 1, 1, 2], [1, 2, 2, 1]), (32, [2, 1, 2, 2], [2, 2, 2, 1]),
   (33, [2, 1, 0, 2], [0, 2, 2, 1]), (33, [2, 1, 1, 2], [1, 2, 2, 1]), (33, [2, 1, 2, 2], [2, 2, 2, 1]),
   (30, [2, 1, 0, 2], [0, 2, 2, 1]), (30, [2, 1, 1, 2], [1, 2, 2, 1]), (30, [2, 1, 2, 2], [2, 2, 2, 1]),
   (31, [2, 1, 0, 2], [0, 2, 2, 1]), (31, [2, 1, 1, 2], [1, 2, 2, 1]), (31, [2, 1, 2, 2], [2, 2, 2, 1]),
   (32, [1, 0, 0, 2], [0, 2, 1, 0]), (32, [1, 0, 1, 2], [1, 2, 1, 0]), (32, [1, 0, 2, 2], [2, 2, 1, 0]),
   (33, [1, 0, 0, 2], [0, 2, 1, 0]), (33, [1, 0, 1, 2], [1, 2, 1, 0]), (33, [1, 0, 2, 2], [2, 2, 1, 0]),
   (30, [1, 0, 0, 2], [0, 2, 1, 0]), (30, [1, 0, 1, 2], [1, 2, 1, 0]), (30, [1, 0, 2, 2], [2, 2, 1, 0]),
   (31, [1, 0, 0, 2], [0, 2, 1, 0]), (31, [1, 0, 1, 2], [1, 2, 1, 0]), (31, [1, 0, 2, 2], [2, 2, 1, 0]),
   (32, [1, 1, 0, 2], [0, 2, 1, 1]), (32, [1, 1, 1, 2], [1, 2, 1, 1]), (32, [1, 1, 2, 2], [2, 2, 1, 1]),
   (33, [1, 1, 0, 2], [0, 2, 1, 1]), (33, [1, 1, 1, 2], [1, 2, 1, 1]), (33, [1, 1, 2, 2], [2, 2, 1, 1]),
   (30, [1, 1, 0, 2], [0, 2, 1, 1]), (30, [1, 1, 1, 2], [1, 2, 1, 1]), (30, [1, 1, 2, 2], [2, 2, 1, 1]),
   (31, [1, 1, 0, 2], [0, 2, 1, 1]), (31, [1, 1, 1, 2], [1, 2, 1, 1]), (31, [1, 1, 2, 2], [2, 2, 1, 1]),
   (32, [0, 0, 0, 2], [0, 2, 0, 0]), (32, [0, 0, 1, 2], [1, 2, 0, 0]), (32, [0, 0, 2, 2], [2, 2, 0, 0]),
   (33, [0, 0, 0, 2], [0, 2, 0, 0]), (33, [0, 0, 1, 2], [1, 2, 0, 0]), (33, [0, 0, 2, 2], [2, 2, 0, 0]),
   (30, [0, 0, 0, 2], [0, 2, 0, 0]), (30, [0, 0, 1, 2], [1, 2, 0, 0]), (30, [0, 0, 2, 2], [2, 2, 0, 0]),
   (31, [0, 0, 0, 2], [0, 2, 0, 0]), (31, [0, 0, 1, 2], [1, 2, 0, 0]), (31, [0, 0, 2, 2], [2, 2, 0, 0]),
   (32, [0, 1, 0, 2], [0, 2, 0, 1]), (32, [0, 1, 1, 2], [1, 2, 0, 1]), (32, [0, 1, 2, 2], [2, 2, 0, 1]),
   (33, [0, 1, 0, 2], [0, 2, 0, 1]), (33, [0, 1, 1, 2], [1, 2, 0, 1]), (33, [0, 1, 2, 2], [2, 2, 0, 1]),
   (30, [0, 1, 0, 2], [0, 2, 0, 1]), (30, [0, 1, 1, 2], [1, 2, 0, 1]), (30, [0, 1, 2, 2], [2, 2, 0, 1]),
   (31, [0, 1, 0, 2], [0, 2, 0, 1]), (31, [0, 1, 1, 2], [1, 2, 0, 1]), (31, [0, 1, 2, 2], [2, 2, 0, 1]),
   (28, [1, 2, 0, 0], [0, 0, 1, 2]), (28, [1, 2, 1, 1], [1, 1, 1, 2]), (28, [1, 2, 2, 2], [2, 2, 1, 2]),
   (28, [1, 2, 0, 1], [0, 1, 1, 2]), (28, [1, 2, 0, 2], [0, 2, 1, 2]), (28, [1, 2, 1, 2], [1, 2, 1, 2]),
   (28, [2, 1, 0, 1], [0, 1, 2, 1]), (28, [2, 1, 0, 2], [0, 2, 2, 1]), (28, [2, 1, 1, 2], [1, 2, 2, 1]),
   (29, [1, 2, 0, 0], [0, 0, 1, 2]), (29, [1, 2, 1, 1], [1, 1, 1, 2]), (29, [1, 2, 2, 2], [2, 2, 1, 2]),
   (29, [1, 2, 0, 1], [0, 1, 1, 2]), (29, [1, 2, 0, 2], [0, 2, 1, 2]), (29, [1, 2, 1, 2], [1, 2, 1, 2]),
   (29, [2, 1, 0, 1], [0, 1, 2, 1]), (29, [2, 1, 0, 2], [0, 2, 2, 1]), (29, [2, 1, 1, 2], [1, 2, 2, 1]),
   (28, [0, 2, 0, 0], [0, 0, 0, 2]), (28, [0, 2, 1, 1], [1, 1, 0, 2]), (28, [0, 2, 2, 2], [2, 2, 0, 2]),
   (28, [0, 2, 0, 1], [0, 1, 0, 2]), (28, [0, 2, 0, 2], [0, 2, 0, 2]), (28, [0, 2, 1, 2], [1, 2, 0, 2]),
   (28, [2, 0, 0, 1], [0, 1, 2, 0]), (28, [2, 0, 0, 2], [0, 2, 2, 0]), (28, [2, 0, 1, 2], [1, 2, 2, 0]),
   (29, [0, 2, 0, 0], [0, 0, 0, 2]), (29, [0, 2, 1, 1], [1, 1, 0, 2]), (29, [0, 2, 2, 2], [2, 2, 0, 2]),
   (29, [0, 2, 0, 1], [0, 1, 0, 2]), (29, [0, 2, 0, 2], [0, 2, 0, 2]), (29, [0, 2, 1, 2], [1, 2, 0, 2]),
   (29, [2, 0, 0, 1], [0, 1, 2, 0]), (29, [2, 0, 0, 2], [0, 2, 2, 0]), (29, [2, 0, 1, 2], [1, 2, 2, 0]),
   (28, [1, 0, 0, 1], [0, 1, 1, 0]), (28, [1, 0, 0, 2], [0, 2, 1, 0]), (28, [1, 0, 1, 2], [1, 2, 1, 0]),
   (28, [0, 1, 0, 1], [0, 1, 0, 1]), (28, [0, 1, 0, 2], [0, 2, 0, 1]), (28, [0, 1, 1, 2], [1, 2, 0, 1]),
   (29, [1, 0, 0, 1], [0, 1, 1, 0]), (29, [1, 0, 0, 2], [0, 2, 1, 0]), (29, [1, 0, 1, 2], [1, 2, 1, 0]),
   (29, [0, 1, 0, 1], [0, 1, 0, 1]), (29, [0, 1, 0, 2], [0, 2, 0, 1]), (29, [0, 1, 1, 2], [1, 2, 0, 1]),
   (17, [1, 2, 0, 0], [0, 0, 1, 2]), (17, [1, 2, 1, 1], [1, 1, 1, 2]), (17, [1, 2, 2, 2], [1, 2, 2, 2]),
   (17, [0, 1, 2, 0], [0, 1, 2, 0]), (20, [1, 2, 0, 0], [0, 0, 1, 2]), (20, [1, 2, 1, 1], [1, 1, 1, 2]),
   (20, [1, 2, 2, 2], [1, 2, 2, 2]), (20, [0, 1, 2, 0], [0, 1, 2, 0]), (18, [1, 2, 0, 0], [1, 2, 0, 0]),
   (18, [1, 2, 1, 1], [1, 2, 1, 1]), (18, [1, 2, 2, 2], [1, 2, 2, 2]), (19, [1, 2, 0, 0], [0, 0, 1, 2]),
   (19, [1, 2, 1, 1], [1, 1, 1, 2]), (19, [1, 2, 2, 2], [2, 2, 1, 2]), (18, [0, 1, 2, 0], [0, 1, 2, 0]),
   (18, [0, 2, 1, 0], [0, 2, 1, 0]), (24, [1, 2, 0, 0], [0, 0, 1, 2]), (24, [1, 2, 1, 1], [1, 1, 1, 2]),
   (24, [1, 2, 2, 2], [2, 2, 1, 2]), (27, [1, 2, 0, 0], [0, 0, 1, 2]), (27, [1, 2, 1, 1], [1, 1, 1, 2]),
   (27, [1, 2, 2, 2], [2, 2, 1, 2]), (25, [1, 2, 0, 0], [1, 2, 0, 0]), (25, [1, 2, 1, 1], [1, 2, 1, 1]),
   (25, [1, 2, 2, 2], [1, 2, 2, 2]), (26, [1, 2, 0, 0], [0, 0, 1, 2]), (26, [1, 2, 1, 1], [1, 1, 1, 2]),
   (26, [1, 2, 2, 2], [2, 2, 1, 2]), (17, [0, 2, 0, 0], [0, 0, 0, 2]), (17, [0, 2, 1, 1], [0, 2, 1, 1]),
   (17, [0, 2, 2, 2], [0, 2, 2, 2]), (20, [0, 2, 0, 0], [0, 0, 0, 2]), (20, [0, 2, 1, 1], [0, 2, 1, 1]),
   (20, [0, 2, 2, 2], [0, 2, 2, 2]), (18, [0, 2, 0, 0], [0, 2, 0, 0]), (18, [0, 2, 1, 1], [0, 2, 1, 1]),
   (18, [0, 2, 2, 2], [0, 2, 2, 2]), (19, [0, 2, 0, 0], [0, 0, 0, 2]), (19, [0, 2, 1, 1], [1, 1, 0, 2]),
   (19, [0, 2, 2, 2], [2, 2, 0, 2]), (18, [1, 2, 0, 1], [1, 2, 0, 1]), (24, [0, 2, 0, 0], [0, 0, 0, 2]),
   (24, [0, 2, 1, 1], [1, 1, 0, 2]), (24, [0, 2, 2, 2], [2, 2, 0, 2]), (27, [0, 2, 0, 0], [0, 0, 0, 2]),
   (27, [0, 2, 1, 1], [1, 1, 0, 2]), (27, [0, 2, 2, 2], [2, 2, 0, 2]), (25, [0, 2, 0, 0], [0, 2, 0, 0]),
   (25, [0, 2, 1, 1], [0, 2, 1, 1]), (25, [0, 2, 2, 2], [0, 2, 2, 2]), (26, [0, 2, 0, 0], [0, 0, 0, 2]),
   (26, [0, 2, 1, 1], [1, 1, 0, 2]), (26, [0, 2, 2, 2], [2, 2, 0, 2]), (17, [0, 1, 0, 0], [0, 0, 0, 1]),
   (17, [0, 1, 1, 1], [0, 1, 1, 1]), (17, [0, 1, 2, 2], [0, 1, 2, 2]), (20, [0, 1, 0, 0], [0, 0, 0, 1]),
   (20, [0, 1, 1, 1], [0, 1, 1, 1]), (20, [0, 1, 2, 2], [0, 1, 2, 2]), (18, [0, 1, 0, 0], [0, 1, 0, 0]),
   (18, [0, 1, 1, 1], [0, 1, 1, 1]), (18, [0, 1, 2, 2], [0, 1, 2, 2]), (19, [0, 1, 0, 0], [0, 0, 0, 1]),
   (19, [0, 1, 1, 1], [1, 1, 0, 1]), (19, [0, 1, 2, 2], [2, 2, 0, 1]), (24, [0, 1, 0, 0], [0, 0, 0, 1]),
   (24, [0, 1, 1, 1], [1, 1, 0, 1]), (24, [0, 1, 2, 2], [2, 2, 0, 1]), (27, [0, 1, 0, 0], [0, 0, 0, 1]),
   (27, [0, 1, 1, 1], [1, 1, 0, 1]), (27, [0, 1, 2, 2], [2, 2, 0, 1]), (25, [0, 1, 0, 0], [0, 1, 0, 0]),
   (25, [0, 1, 1, 1], [0, 1, 1, 1]), (25, [0, 1, 2, 2], [0, 1, 2, 2]), (26, [0, 1, 0, 0], [0, 0, 0, 1]),
   (26, [0, 1, 1, 1], [1, 1, 0, 1]), (26, [0, 1, 2, 2], [2, 2, 0, 1]), (24, [1, 2, 0, 1], [0, 1, 1, 2]),
   (27, [1, 2, 0, 1], [0, 1, 1, 2]), (25, [1, 2, 0, 1], [1, 2, 0, 1]), (26, [1, 2, 0, 1], [0, 1, 1, 2]),
   (24, [2, 1, 0, 1], [0, 1, 2, 1]), (27, [2, 1, 0, 1], [0, 1, 2, 1]), (26, [2, 1, 0, 1], [0, 1, 2, 1]),
   (24, [1, 2, 0, 2], [0, 2, 1, 2]), (27, [1, 2, 0, 2], [0, 2, 1, 2]), (25, [1, 2, 0, 2], [1, 2, 0, 2]),
   (26, [1, 2, 0, 2], [0, 2, 1, 2]), (24, [2, 1, 0, 2], [0, 2, 2, 1]), (27, [2, 1, 0, 2], [0, 2, 2, 1]),
   (26, [2, 1, 0, 2], [0, 2, 2, 1]), (24, [1, 2, 1, 2], [1, 2, 1, 2]), (27, [1, 2, 1, 2], [1, 2, 1, 2]),
   (25, [1, 2, 1, 2], [1, 2, 1, 2]), (26, [1, 2, 1, 2], [1, 2, 1, 2]), (24, [2, 1, 1, 2], [1, 2, 2, 1]),
   (27, [2, 1, 1, 2], [1, 2, 2, 1]), (26, [2, 1, 1, 2], [1, 2, 2, 1]), (24, [0, 2, 0, 1], [0, 1, 0, 2]),
   (27, [0, 2, 0, 1], [0, 1, 0, 2]), (25, [0, 2, 0, 1], [0, 2, 0, 1]), (26, [0, 2, 0, 1], [0, 1, 0, 2]),
   (24, [2, 0, 0, 1], [0, 1, 2, 0]), (27, [2, 0, 0, 1], [0, 1, 2, 0]), (26, [2, 0, 0, 1], [0, 1, 2, 0]),
   (24, [0, 2, 0, 2], [0, 2, 0, 2]), (27, [0, 2, 0, 2], [0, 2, 0, 2]), (25, [0, 2, 0, 2], [0, 2, 0, 2]),
   (26, [0, 2, 0, 2], [0, 2, 0, 2]), (24, [2, 0, 0, 2], [0, 2, 2, 0]), (27, [2, 0, 0, 2], [0, 2, 2, 0]),
   (26, [2, 0, 0, 2], [0, 2, 2, 0]), (24, [0, 2, 1, 2], [1, 2, 0, 2]), (27, [0, 2, 1, 2], [1, 2, 0, 2]),
   (25, [0, 2, 1, 2], [0, 2, 1, 2]), (26, [0, 2, 1, 2], [1, 2, 0, 2]), (24, [2, 0, 1, 2], [1, 2, 2, 0]),
   (27, [2, 0, 1, 2], [1, 2, 2, 0]), (26, [2, 0, 1, 2], [1, 2, 2, 0]), (24, [1, 0, 0, 1], [0, 1, 1, 0]),
   (27, [1, 0, 0, 1], [0, 1, 1, 0]), (26, [1, 0, 0, 1], [0, 1, 1, 0]), (24, [0, 1, 0, 1], [0, 1, 0, 1]),
   (27, [0, 1, 0, 1], [0, 1, 0, 1]), (25, [0, 1, 0, 1], [0, 1, 0, 1]), (26, [0, 1, 0, 1], [0, 1, 0, 1]),
   (24, [1, 0, 0, 2], [0, 2, 1, 0]), (27, [1, 0, 0, 2], [0, 2, 1, 0]), (26, [1, 0, 0, 2], [0, 2, 1, 0]),
   (24, [0, 1, 0, 2], [0, 2, 0, 1]), (27, [0, 1, 0, 2], [0, 2, 0, 1]), (25, [0, 1, 0, 2], [0, 1, 0, 2]),
   (26, [0, 1, 0, 2], [0, 2, 0, 1]), (24, [1, 0, 1, 2], [1, 2, 1, 0]), (27, [1, 0, 1, 2], [1, 2, 1, 0]),
   (26, [1, 0, 1, 2], [1, 2, 1, 0]), (24, [0, 1, 1, 2], [1, 2, 0, 1]), (27, [0, 1, 1, 2], [1, 2, 0, 1]),
   (25, [0, 1, 1, 2], [0, 1, 1, 2]), (26, [0, 1, 1, 2], [1, 2, 0, 1]), (2, [1, 2, 0, 1], [1, 2, 0, 1]),
   (1, [0, 0, 1, 2], [0, 0, 1, 2]), (1, [1, 1, 1, 2], [1, 1, 1, 2]), (1, [2, 2, 1, 2], [1, 2, 2, 2]),
   (3, [0, 0, 1, 2], [0, 0, 1, 2]), (3, [1, 1, 1, 2], [1, 1, 1, 2]), (3, [2, 2, 1, 2], [1, 2, 2, 2]),
   (2, [0, 0, 1, 2], [0, 0, 1, 2]), (2, [1, 1, 1, 2], [1, 1, 1, 2]), (2, [2, 2, 1, 2], [2, 2, 1, 2]),
   (2, [1, 2, 0, 0], [1, 2, 0, 0]), (2, [1, 2, 1, 1], [1, 2, 1, 1]), (2, [1, 2, 2, 2], [1, 2, 2, 2]),
   (2, [0, 1, 2, 0], [0, 1, 2, 0]), (2, [0, 2, 1, 0], [0, 2, 1, 0]), (7, [1, 2, 0, 0], [1, 2, 0, 0]),
   (7, [1, 2, 1, 1], [1, 2, 1, 1]), (7, [1, 2, 2, 2], [1, 2, 2, 2]), (9, [1, 2, 0, 0], [1, 2, 0, 0]),
   (9, [1, 2, 1, 1], [1, 2, 1, 1]), (9, [1, 2, 2, 2], [1, 2, 2, 2]), (8, [1, 2, 0, 0], [1, 2, 0, 0]),
   (8, [1, 2, 1, 1], [1, 2, 1, 1]), (8, [1, 2, 2, 2], [1, 2, 2, 2]), (25, [0, 0, 1, 2], [0, 0, 1, 2]),
   (25, [1, 1, 1, 2], [1, 1, 1, 2]), (25, [2, 2, 1, 2], [2, 2, 1, 2]), (13, [1, 2, 0, 0], [1, 2, 0, 0]),
   (13, [1, 2, 1, 1], [1, 2, 1, 1]), (15, [1, 2, 0, 0], [1, 2, 0, 0]), (15, [1, 2, 1, 1], [1, 2, 1, 1]),
   (14, [1, 2, 0, 0], [1, 2, 0, 0]), (14, [1, 2, 1, 1], [1, 2, 1, 1]), (1, [0, 2, 0, 2], [0, 2, 0, 2]),
   (3, [0, 2, 0, 2], [0, 2, 0, 2]), (2, [0, 2, 0, 2], [0, 2, 0, 2]), (1, [1, 2, 1, 2], [1, 2, 1, 2]),
   (3, [1, 2, 1, 2], [1, 2, 1, 2]), (2, [1, 2, 1, 2], [1, 2, 1, 2]), (1, [0, 1, 0, 1], [0, 1, 0, 1]),
   (3, [0, 1, 0, 1], [0, 1, 0, 1]), (2, [0, 1, 0, 1], [0, 1, 0, 1]), (1, [0, 1, 2, 1], [0, 1, 2, 1]),
   (3, [0, 1, 2, 1], [0, 1, 2, 1]), (2, [0, 1, 2, 1], [0, 1, 2, 1]), (2, [1, 2, 1, 0], [1, 2, 1, 0]),
   (1, [0, 1, 0, 2], [0, 1, 0, 2]), (3, [0, 1, 0, 2], [0, 1, 0, 2]), (2, [0, 1, 0, 2], [0, 1, 0, 2]),
   (2, [0, 2, 0, 1], [0, 2, 0, 1]), (1, [0, 2, 1, 2], [0, 2, 1, 2]), (3, [0, 2, 1, 2], [0, 2, 1, 2]),
   (2, [0, 2, 1, 2], [0, 2, 1, 2]), (2, [1, 2, 0, 2], [1, 2, 0, 2])]

/-- Operator of a row. -/
def opAt (n : ℕ) : FkOp := fkOps.getD n ⟨"", "", .swap⟩

/-- The two names of a row. -/
def rowNames (r : FkRow) : String × String := (label (opAt r.1).fk r.2.1, label (opAt r.1).jms r.2.2)

theorem rowsPlain_eq : rowsPlain.map rowNames = fkJms := by decide +kernel

theorem rowsConj_eq : rowsConj.map rowNames = fkJmsConj := by decide +kernel

end Verif
