import Verif.Tables.Lit

/-! Generated by tools/gen_tables.py from /repo/src/faddeeva.rs. Do not edit. -/

namespace Verif

/-- src/faddeeva.rs:314-524 `TILES`: 50 rows (one per x-strip) of 50 pairs (`tx` is the pair -2, -2) -/
def tileRows : List (List (Int × Int)) :=
  [[tx, tl 3 18, tl 3 15, tl 3 19, tl 13 20, tl 13 17, tl 13 14, tl 13 17, tl 13 23, tl 29 20, tl 29 18, tl 29 15, tl 29 13, tl 29 15, tl 29 18, tl 29 23, tl 38 17, tl 38 15, tl 38 13, tl 38 13, tl 38 15, tl 38 18, tl 38 20, tl 38 23, tl 48 20, tl 48 18, tl 48 16, tl 48 15, tl 48 13, tl 48 11, tl 48 13, tl 48 15, tl 48 17, tl 48 19, tl 48 21, tl 48 23, tl 58 19, tl 58 18, tl 58 16, tl 58 15, tl 58 13, tl 58 12, tl 58 10, tl 58 12, tl 58 13, tl 58 15, tl 58 16, tl 58 18, tl 58 19, tx],
   [tl 1 16, tl 0 15, tl 0 15, tl 8 18, tl 8 18, tl 13 19, tl 13 18, tl 13 20, tl 21 19, tl 21 20, tl 29 19, tl 29 17, tl 29 16, tl 29 18, tl 29 20, tl 38 21, tl 38 19, tl 38 17, tl 38 15, tl 38 15, tl 38 17, tl 38 19, tl 38 21, tl 48 22, tl 48 20, tl 48 19, tl 48 17, tl 48 16, tl 48 14, tl 48 13, tl 48 14, tl 48 16, tl 48 17, tl 48 19, tl 48 21, tl 48 23, tl 58 19, tl 58 18, tl 58 17, tl 58 15, tl 58 14, tl 58 13, tl 58 12, tl 58 13, tl 58 14, tl 58 15, tl 58 17, tl 58 18, tl 58 20, tx],
   [tl 4 16, tl 0 19, tl 0 23, tl 8 15, tl 8 15, tl 15 18, tl 15 16, tl 15 18, tl 21 16, tl 21 16, tl 21 19, tl 29 20, tl 29 19, tl 29 20, tl 29 23, tl 30 19, tl 38 20, tl 38 19, tl 38 18, tl 38 18, tl 38 19, tl 38 21, tl 38 23, tl 46 22, tl 46 22, tl 48 20, tl 48 18, tl 48 17, tl 48 16, tl 48 15, tl 48 16, tl 48 17, tl 48 18, tl 48 20, tl 48 22, tl 58 21, tl 58 20, tl 58 18, tl 58 17, tl 58 16, tl 58 15, tl 58 14, tl 58 14, tl 58 14, tl 58 15, tl 58 16, tl 58 17, tl 58 19, tl 58 20, tx],
   [tl 5 16, tl 2 16, tl 2 17, tl 8 18, tl 8 19, tl 15 16, tl 15 12, tl 15 16, tl 21 14, tl 21 14, tl 21 17, tl 30 19, tl 30 17, tl 30 15, tl 30 15, tl 30 17, tl 30 21, tl 38 21, tl 38 20, tl 38 20, tl 38 21, tl 38 23, tl 46 20, tl 46 20, tl 46 20, tl 46 20, tl 48 20, tl 48 18, tl 48 18, tl 48 17, tl 48 18, tl 48 19, tl 48 20, tl 48 21, tl 48 23, tl 58 22, tl 58 20, tl 58 19, tl 58 18, tl 58 17, tl 58 16, tl 58 16, tl 58 15, tl 58 16, tl 58 16, tl 58 17, tl 58 18, tl 58 20, tl 58 21, tx],
   [tl 6 16, tl 2 16, tl 2 17, tl 11 17, tl 11 18, tl 15 18, tl 15 16, tl 15 19, tl 21 16, tl 21 16, tl 21 20, tl 30 18, tl 30 16, tl 30 13, tl 30 13, tl 30 16, tl 30 19, tl 41 21, tl 38 22, tl 38 23, tl 41 18, tl 41 20, tl 46 18, tl 46 17, tl 46 18, tl 46 18, tl 46 20, tl 46 22, tl 48 19, tl 48 19, tl 48 20, tl 48 20, tl 48 21, tl 48 23, tl 53 22, tl 53 22, tl 58 21, tl 58 20, tl 58 19, tl 58 18, tl 58 18, tl 58 17, tl 58 17, tl 58 17, tl 58 18, tl 58 18, tl 58 19, tl 58 20, tl 58 22, tx],
   [tl 9 16, tl 7 16, tl 7 17, tl 11 14, tl 11 15, tl 19 18, tl 19 16, tl 19 18, tl 21 20, tl 21 23, tl 26 19, tl 30 19, tl 30 17, tl 30 15, tl 30 15, tl 30 17, tl 30 23, tl 41 19, tl 41 17, tl 41 16, tl 41 16, tl 41 17, tl 46 17, tl 46 15, tl 46 15, tl 46 17, tl 46 18, tl 46 20, tl 46 23, tl 48 21, tl 48 21, tl 48 22, tl 48 23, tl 53 20, tl 53 20, tl 53 20, tl 53 21, tl 53 22, tl 58 20, tl 58 19, tl 58 19, tl 58 18, tl 58 18, tl 58 19, tl 58 19, tl 58 20, tl 58 21, tl 58 22, tl 58 23, tx],
   [tl 12 16, tl 7 16, tl 7 17, tl 11 18, tl 11 18, tl 19 16, tl 19 12, tl 19 16, tl 26 18, tl 26 16, tl 26 16, tl 26 18, tl 30 19, tl 30 18, tl 30 18, tl 35 17, tl 35 17, tl 35 18, tl 41 16, tl 41 14, tl 41 14, tl 41 16, tl 46 15, tl 46 13, tl 46 13, tl 46 15, tl 46 17, tl 46 19, tl 46 23, tl 48 23, tl 53 20, tl 53 19, tl 53 19, tl 53 18, tl 53 18, tl 53 19, tl 53 20, tl 53 21, tl 53 22, tl 58 21, tl 58 20, tl 58 20, tl 58 20, tl 58 20, tl 58 20, tl 58 21, tl 58 22, tl 58 23, tl 62 19, tx],
   [tl 14 16, tl 10 18, tl 10 18, tl 16 17, tl 16 17, tl 19 18, tl 19 16, tl 19 18, tl 26 17, tl 26 13, tl 26 13, tl 26 17, tl 26 23, tl 35 19, tl 35 16, tl 35 14, tl 35 15, tl 35 17, tl 41 15, tl 41 12, tl 41 12, tl 41 15, tl 46 14, tl 46 12, tl 46 12, tl 46 14, tl 46 16, tl 46 19, tl 46 22, tl 53 20, tl 53 19, tl 53 18, tl 53 17, tl 53 17, tl 53 17, tl 53 17, tl 53 18, tl 53 19, tl 53 21, tl 62 19, tl 58 22, tl 58 21, tl 58 21, tl 58 21, tl 58 22, tl 58 22, tl 58 23, tl 62 17, tl 62 18, tx],
   [tl 17 16, tl 10 15, tl 10 15, tl 16 14, tl 16 14, tl 16 23, tl 23 19, tl 23 20, tl 26 18, tl 26 16, tl 26 16, tl 26 18, tl 35 20, tl 35 18, tl 35 15, tl 35 12, tl 35 12, tl 35 15, tl 41 16, tl 41 14, tl 41 14, tl 41 16, tl 46 15, tl 46 13, tl 46 13, tl 46 15, tl 46 17, tl 46 19, tl 46 23, tl 53 19, tl 53 18, tl 53 17, tl 53 16, tl 53 15, tl 53 15, tl 53 16, tl 53 17, tl 53 18, tl 53 20, tl 62 18, tl 58 23, tl 58 23, tl 58 23, tl 58 23, tl 58 23, tl 62 14, tl 62 15, tl 62 16, tl 62 17, tx],
   [tl 18 17, tl 10 19, tl 10 23, tl 16 17, tl 16 18, tl 23 19, tl 23 16, tl 23 16, tl 23 19, tl 26 19, tl 26 19, tl 33 18, tl 33 20, tl 35 19, tl 35 16, tl 35 15, tl 35 15, tl 35 17, tl 41 17, tl 41 16, tl 41 16, tl 41 18, tl 46 17, tl 46 15, tl 46 15, tl 46 17, tl 46 18, tl 46 20, tl 46 23, tl 53 19, tl 53 17, tl 53 16, tl 53 14, tl 53 13, tl 53 13, tl 53 14, tl 53 16, tl 53 17, tl 53 19, tl 62 17, tl 62 16, tl 62 15, tl 62 14, tl 62 13, tl 62 12, tl 62 13, tl 62 14, tl 62 15, tl 62 16, tx],
   [tl 18 18, tl 20 18, tl 20 15, tl 20 18, tl 25 19, tl 23 17, tl 23 14, tl 23 14, tl 23 17, tl 33 17, tl 33 15, tl 33 15, tl 33 18, tl 33 21, tl 35 18, tl 35 17, tl 35 17, tl 35 19, tl 35 23, tl 41 19, tl 41 19, tl 41 20, tl 46 18, tl 46 18, tl 46 18, tl 46 19, tl 46 20, tl 46 23, tl 53 20, tl 53 18, tl 53 16, tl 53 15, tl 53 13, tl 53 11, tl 53 11, tl 53 13, tl 53 15, tl 53 17, tl 53 18, tl 62 17, tl 62 16, tl 62 14, tl 62 13, tl 62 11, tl 62 10, tl 62 11, tl 62 13, tl 62 15, tx, tx],
   [tl 22 17, tl 20 18, tl 20 15, tl 20 18, tl 25 17, tl 25 14, tl 23 16, tl 23 16, tl 23 20, tl 33 16, tl 33 13, tl 33 13, tl 33 16, tl 33 20, tl 39 20, tl 35 20, tl 35 20, tl 35 23, tl 44 21, tl 41 21, tl 41 21, tl 46 21, tl 46 20, tl 46 20, tl 46 20, tl 46 21, tl 46 23, tl 53 21, tl 53 20, tl 53 18, tl 53 16, tl 53 15, tl 53 13, tl 53 11, tl 53 11, tl 53 13, tl 53 15, tl 53 17, tl 53 18, tl 62 17, tl 62 16, tl 62 14, tl 62 13, tl 62 11, tl 62 10, tl 62 11, tl 62 13, tl 62 15, tx, tx],
   [tl 22 17, tl 24 17, tl 24 14, tl 24 18, tl 25 17, tl 25 14, tl 25 17, tl 23 23, tl 33 20, tl 33 18, tl 33 15, tl 33 15, tl 33 18, tl 39 17, tl 39 17, tl 39 19, tl 39 21, tl 44 20, tl 44 19, tl 44 19, tl 44 20, tl 44 22, tl 49 21, tl 49 20, tl 49 20, tl 49 19, tl 49 20, tl 49 21, tl 49 22, tl 53 19, tl 53 17, tl 53 16, tl 53 14, tl 53 13, tl 53 13, tl 53 14, tl 53 16, tl 53 17, tl 53 19, tl 62 18, tl 62 16, tl 62 15, tl 62 14, tl 62 13, tl 62 12, tl 62 13, tl 62 14, tl 62 15, tx, tx],
   [tl 27 18, tl 24 17, tl 24 15, tl 24 18, tl 25 20, tl 25 18, tl 25 23, tl 31 18, tl 31 19, tl 33 20, tl 33 18, tl 33 18, tl 39 16, tl 39 15, tl 39 15, tl 39 17, tl 39 19, tl 44 18, tl 44 17, tl 44 17, tl 44 18, tl 44 20, tl 44 22, tl 49 19, tl 49 18, tl 49 18, tl 49 18, tl 49 19, tl 49 20, tl 53 19, tl 53 18, tl 53 17, tl 53 16, tl 53 15, tl 53 15, tl 53 16, tl 53 17, tl 53 18, tl 53 20, tl 62 18, tl 62 17, tl 62 16, tl 62 15, tl 62 14, tl 62 14, tl 62 14, tl 62 15, tl 62 16, tx, tx],
   [tl 27 15, tl 28 20, tl 28 17, tl 28 17, tl 28 20, tl 31 19, tl 31 17, tl 31 15, tl 31 17, tl 31 20, tl 39 21, tl 39 18, tl 39 15, tl 39 12, tl 39 12, tl 39 15, tl 39 18, tl 44 16, tl 44 15, tl 44 15, tl 44 16, tl 44 18, tl 44 20, tl 49 17, tl 49 16, tl 49 16, tl 49 16, tl 49 17, tl 49 19, tl 49 21, tl 53 19, tl 53 18, tl 53 17, tl 53 17, tl 53 17, tl 53 17, tl 53 18, tl 53 19, tl 53 21, tl 62 19, tl 62 18, tl 62 17, tl 62 16, tl 62 15, tl 62 15, tl 62 15, tl 62 16, tx, tx, tx],
   [tl 27 19, tl 28 18, tl 28 14, tl 28 14, tl 28 18, tl 31 18, tl 31 15, tl 31 12, tl 31 15, tl 31 18, tl 36 20, tl 39 19, tl 39 17, tl 39 15, tl 39 15, tl 39 17, tl 44 17, tl 44 15, tl 44 13, tl 44 13, tl 44 15, tl 44 17, tl 49 17, tl 49 16, tl 49 14, tl 49 13, tl 49 14, tl 49 16, tl 49 18, tl 49 20, tl 49 22, tl 53 19, tl 53 19, tl 53 18, tl 53 18, tl 53 19, tl 53 20, tl 53 21, tl 53 23, tl 62 20, tl 62 19, tl 62 18, tl 62 17, tl 62 17, tl 62 16, tl 62 17, tl 62 17, tx, tx, tx],
   [tl 32 21, tl 28 20, tl 28 17, tl 28 17, tl 28 21, tl 31 20, tl 31 17, tl 31 15, tl 31 17, tl 36 18, tl 36 18, tl 36 19, tl 39 19, tl 39 17, tl 39 17, tl 39 19, tl 44 17, tl 44 15, tl 44 13, tl 44 13, tl 44 15, tl 44 17, tl 49 17, tl 49 15, tl 49 13, tl 49 11, tl 49 13, tl 49 15, tl 49 17, tl 49 19, tl 49 21, tl 53 21, tl 53 20, tl 53 20, tl 53 20, tl 53 21, tl 53 22, tl 53 23, tl 57 20, tl 57 21, tl 62 20, tl 62 19, tl 62 19, tl 62 18, tl 62 18, tl 62 18, tl 62 19, tx, tx, tx],
   [tl 32 17, tl 32 20, tl 34 21, tl 34 19, tl 34 19, tl 34 21, tl 31 20, tl 31 19, tl 36 17, tl 36 15, tl 36 15, tl 36 17, tl 36 20, tl 39 20, tl 39 20, tl 39 23, tl 44 18, tl 44 16, tl 44 15, tl 44 15, tl 44 16, tl 44 18, tl 49 17, tl 49 15, tl 49 13, tl 49 11, tl 49 13, tl 49 15, tl 49 17, tl 49 19, tl 49 21, tl 57 22, tl 53 22, tl 53 22, tl 57 19, tl 57 19, tl 57 19, tl 57 19, tl 57 19, tl 57 20, tl 57 20, tl 57 21, tl 62 20, tl 62 20, tl 62 19, tl 62 20, tx, tx, tx, tx],
   [tl 32 15, tl 32 19, tl 34 19, tl 34 16, tl 34 16, tl 34 19, tl 36 21, tl 36 19, tl 36 16, tl 36 13, tl 36 13, tl 36 16, tl 36 19, tl 36 22, tl 47 22, tl 47 21, tl 44 20, tl 44 18, tl 44 17, tl 44 17, tl 44 18, tl 44 20, tl 49 18, tl 49 16, tl 49 14, tl 49 14, tl 49 14, tl 49 16, tl 49 18, tl 49 20, tl 49 22, tl 57 21, tl 57 20, tl 57 19, tl 57 18, tl 57 17, tl 57 17, tl 57 17, tl 57 18, tl 57 18, tl 57 19, tl 57 20, tl 57 21, tl 62 21, tl 62 21, tl 62 21, tx, tx, tx, tx],
   [tl 32 18, tl 32 21, tl 34 17, tl 34 14, tl 34 14, tl 34 17, tl 34 21, tl 36 20, tl 36 17, tl 36 15, tl 36 15, tl 36 17, tl 36 20, tl 42 20, tl 42 22, tl 47 19, tl 47 18, tl 47 18, tl 47 19, tl 44 20, tl 44 21, tl 44 23, tl 49 19, tl 49 17, tl 49 16, tl 49 16, tl 49 16, tl 49 17, tl 49 19, tl 49 21, tl 49 23, tl 57 20, tl 57 19, tl 57 18, tl 57 17, tl 57 16, tl 57 16, tl 57 16, tl 57 16, tl 57 17, tl 57 18, tl 57 19, tl 57 21, tl 57 22, tl 62 23, tl 62 23, tx, tx, tx, tx],
   [tl 32 22, tl 37 22, tl 34 19, tl 34 16, tl 34 16, tl 34 19, tl 40 22, tl 36 21, tl 36 19, tl 36 18, tl 36 18, tl 42 17, tl 42 17, tl 42 18, tl 42 20, tl 47 17, tl 47 16, tl 47 16, tl 47 17, tl 47 19, tl 47 21, tl 49 22, tl 49 20, tl 49 19, tl 49 18, tl 49 18, tl 49 18, tl 49 19, tl 49 21, tl 49 23, tl 57 21, tl 57 19, tl 57 18, tl 57 17, tl 57 16, tl 57 15, tl 57 14, tl 57 14, tl 57 15, tl 57 16, tl 57 17, tl 57 18, tl 57 20, tl 57 21, tl 57 23, tx, tx, tx, tx, tx],
   [tl 37 17, tl 37 19, tl 34 22, tl 34 20, tl 34 20, tl 40 18, tl 40 20, tl 40 22, tl 36 22, tl 42 18, tl 42 16, tl 42 14, tl 42 14, tl 42 16, tl 42 19, tl 47 15, tl 47 14, tl 47 14, tl 47 15, tl 47 17, tl 47 20, tl 47 22, tl 49 22, tl 49 21, tl 49 20, tl 49 20, tl 49 20, tl 49 21, tl 49 23, tl 57 22, tl 57 20, tl 57 19, tl 57 17, tl 57 16, tl 57 15, tl 57 14, tl 57 13, tl 57 13, tl 57 14, tl 57 15, tl 57 16, tl 57 18, tl 57 19, tl 57 21, tl 57 23, tx, tx, tx, tx, tx],
   [tl 37 14, tl 37 18, tl 37 22, tl 40 18, tl 40 15, tl 40 15, tl 40 18, tl 40 20, tl 42 20, tl 42 18, tl 42 15, tl 42 12, tl 42 12, tl 42 15, tl 42 18, tl 47 14, tl 47 12, tl 47 12, tl 47 14, tl 47 17, tl 47 19, tl 47 22, tl 54 21, tl 54 20, tl 54 20, tl 54 19, tl 54 19, tl 54 20, tl 54 21, tl 54 22, tl 57 20, tl 57 18, tl 57 17, tl 57 16, tl 57 14, tl 57 13, tl 57 11, tl 57 11, tl 57 13, tl 57 14, tl 57 16, tl 57 17, tl 57 19, tl 57 20, tx, tx, tx, tx, tx, tx],
   [tl 37 17, tl 37 20, tl 37 23, tl 40 16, tl 40 13, tl 40 13, tl 40 16, tl 40 19, tl 40 23, tl 42 18, tl 42 16, tl 42 14, tl 42 14, tl 42 16, tl 42 19, tl 47 15, tl 47 14, tl 47 14, tl 47 15, tl 47 17, tl 47 20, tl 47 22, tl 54 20, tl 54 19, tl 54 18, tl 54 18, tl 54 18, tl 54 18, tl 54 19, tl 54 20, tl 54 22, tl 57 18, tl 57 17, tl 57 16, tl 57 14, tl 57 13, tl 57 11, tl 57 11, tl 57 13, tl 57 14, tl 57 16, tl 57 17, tl 57 19, tl 57 20, tx, tx, tx, tx, tx, tx],
   [tl 37 20, tl 37 23, tl 40 20, tl 40 18, tl 40 15, tl 40 15, tl 40 18, tl 40 21, tl 42 22, tl 42 20, tl 42 18, tl 42 17, tl 42 17, tl 42 18, tl 42 20, tl 47 17, tl 47 16, tl 47 16, tl 47 17, tl 47 19, tl 47 21, tl 54 20, tl 54 19, tl 54 18, tl 54 17, tl 54 16, tl 54 16, tl 54 17, tl 54 18, tl 54 19, tl 54 21, tl 57 19, tl 57 17, tl 57 16, tl 57 15, tl 57 14, tl 57 13, tl 57 13, tl 57 14, tl 57 15, tl 57 16, tl 57 18, tl 57 19, tx, tx, tx, tx, tx, tx, tx],
   [tl 43 22, tl 43 23, tl 40 22, tl 40 20, tl 40 18, tl 40 18, tl 40 20, tl 40 23, tl 45 21, tl 42 22, tl 42 21, tl 42 19, tl 42 19, tl 42 21, tl 42 23, tl 47 19, tl 47 18, tl 47 18, tl 47 19, tl 47 21, tl 47 23, tl 54 19, tl 54 18, tl 54 16, tl 54 15, tl 54 14, tl 54 14, tl 54 15, tl 54 16, tl 54 18, tl 54 20, tl 54 21, tl 57 18, tl 57 17, tl 57 16, tl 57 15, tl 57 14, tl 57 14, tl 57 15, tl 57 16, tl 57 17, tl 57 18, tl 57 20, tx, tx, tx, tx, tx, tx, tx],
   [tl 43 19, tl 43 20, tl 43 23, tl 40 23, tl 40 22, tl 40 22, tl 45 18, tl 45 18, tl 45 18, tl 45 20, tl 45 22, tl 42 23, tl 42 23, tl 51 22, tl 47 23, tl 47 21, tl 47 21, tl 47 21, tl 47 22, tl 47 23, tl 54 20, tl 54 19, tl 54 17, tl 54 15, tl 54 14, tl 54 12, tl 54 12, tl 54 14, tl 54 15, tl 54 17, tl 54 19, tl 54 21, tl 57 19, tl 57 18, tl 57 17, tl 57 16, tl 57 16, tl 57 16, tl 57 16, tl 57 17, tl 57 18, tl 57 19, tx, tx, tx, tx, tx, tx, tx, tx],
   [tl 43 16, tl 43 18, tl 43 21, tl 45 23, tl 45 20, tl 45 18, tl 45 16, tl 45 15, tl 45 16, tl 45 18, tl 45 20, tl 45 23, tl 51 21, tl 51 20, tl 51 19, tl 51 19, tl 51 20, tl 51 21, tl 51 22, tl 54 22, tl 54 20, tl 54 18, tl 54 17, tl 54 15, tl 54 13, tl 54 11, tl 54 11, tl 54 13, tl 54 15, tl 54 17, tl 54 19, tl 54 21, tl 57 20, tl 57 19, tl 57 18, tl 57 18, tl 57 17, tl 57 17, tl 57 18, tl 57 18, tl 57 19, tx, tx, tx, tx, tx, tx, tx, tx, tx],
   [tl 43 13, tl 43 17, tl 43 20, tl 43 23, tl 45 19, tl 45 17, tl 45 14, tl 45 12, tl 45 14, tl 45 17, tl 45 19, tl 45 22, tl 51 19, tl 51 18, tl 51 17, tl 51 17, tl 51 18, tl 51 19, tl 51 21, tl 51 23, tl 54 20, tl 54 19, tl 54 17, tl 54 15, tl 54 14, tl 54 12, tl 54 12, tl 54 14, tl 54 15, tl 54 17, tl 54 19, tl 54 21, tl 54 23, tl 57 20, tl 57 20, tl 57 19, tl 57 19, tl 57 19, tl 57 19, tl 57 20, tl 57 21, tx, tx, tx, tx, tx, tx, tx, tx, tx],
   [tl 43 16, tl 43 18, tl 43 21, tl 45 22, tl 45 19, tl 45 17, tl 45 14, tl 45 12, tl 45 14, tl 45 17, tl 45 19, tl 45 22, tl 51 18, tl 51 16, tl 51 15, tl 51 15, tl 51 16, tl 51 18, tl 51 19, tl 51 21, tl 54 21, tl 54 19, tl 54 18, tl 54 16, tl 54 15, tl 54 14, tl 54 14, tl 54 15, tl 54 16, tl 54 18, tl 54 20, tl 54 22, tl 61 21, tl 57 22, tl 57 21, tl 57 21, tl 57 20, tl 57 20, tl 57 21, tl 57 21, tx, tx, tx, tx, tx, tx, tx, tx, tx, tx],
   [tl 43 19, tl 43 21, tl 43 23, tl 45 23, tl 45 20, tl 45 18, tl 45 16, tl 45 15, tl 45 16, tl 45 18, tl 45 21, tl 51 18, tl 51 16, tl 51 15, tl 51 13, tl 51 13, tl 51 15, tl 51 17, tl 51 19, tl 51 21, tl 51 23, tl 54 20, tl 54 19, tl 54 18, tl 54 17, tl 54 16, tl 54 16, tl 54 17, tl 54 18, tl 54 19, tl 54 21, tl 61 19, tl 61 19, tl 61 20, tl 61 21, tl 61 21, tl 57 22, tl 57 22, tl 57 23, tx, tx, tx, tx, tx, tx, tx, tx, tx, tx, tx],
   [tl 50 16, tl 50 18, tl 50 20, tl 50 23, tl 45 22, tl 45 20, tl 45 19, tl 45 18, tl 45 19, tl 45 20, tl 45 22, tl 51 18, tl 51 16, tl 51 14, tl 51 11, tl 51 11, tl 51 14, tl 51 16, tl 51 18, tl 51 20, tl 51 23, tl 54 22, tl 54 20, tl 54 19, tl 54 18, tl 54 18, tl 54 18, tl 54 18, tl 54 19, tl 61 18, tl 61 17, tl 61 17, tl 61 18, tl 61 19, tl 61 19, tl 61 20, tl 61 21, tl 61 23, tx, tx, tx, tx, tx, tx, tx, tx, tx, tx, tx, tx],
   [tl 50 13, tl 50 16, tl 50 19, tl 50 22, tl 52 22, tl 45 23, tl 45 21, tl 45 21, tl 45 21, tl 45 23, tl 51 21, tl 51 18, tl 51 17, tl 51 15, tl 51 13, tl 51 13, tl 51 15, tl 51 17, tl 51 19, tl 51 21, tl 51 23, tl 56 23, tl 54 22, tl 54 21, tl 54 20, tl 54 20, tl 54 20, tl 54 20, tl 61 17, tl 61 16, tl 61 16, tl 61 16, tl 61 17, tl 61 17, tl 61 18, tl 61 19, tl 61 20, tl 61 22, tx, tx, tx, tx, tx, tx, tx, tx, tx, tx, tx, tx],
   [tl 50 13, tl 50 16, tl 50 19, tl 50 22, tl 52 20, tl 52 19, tl 52 18, tl 52 17, tl 52 18, tl 52 19, tl 52 21, tl 51 19, tl 51 18, tl 51 16, tl 51 15, tl 51 15, tl 51 16, tl 51 18, tl 51 20, tl 51 22, tl 56 20, tl 56 21, tl 56 22, tl 54 23, tl 54 22, tl 54 22, tl 61 18, tl 61 17, tl 61 16, tl 61 15, tl 61 15, tl 61 15, tl 61 15, tl 61 16, tl 61 17, tl 61 18, tl 61 20, tx, tx, tx, tx, tx, tx, tx, tx, tx, tx, tx, tx, tx],
   [tl 50 16, tl 50 18, tl 50 20, tl 50 23, tl 52 19, tl 52 17, tl 52 16, tl 52 15, tl 52 16, tl 52 17, tl 52 19, tl 52 21, tl 51 19, tl 51 18, tl 51 17, tl 51 17, tl 51 18, tl 51 19, tl 56 18, tl 56 18, tl 56 19, tl 56 19, tl 56 20, tl 56 22, tl 61 20, tl 61 19, tl 61 17, tl 61 16, tl 61 15, tl 61 14, tl 61 13, tl 61 13, tl 61 14, tl 61 15, tl 61 16, tl 61 18, tx, tx, tx, tx, tx, tx, tx, tx, tx, tx, tx, tx, tx, tx],
   [tl 50 19, tl 50 20, tl 50 22, tl 52 20, tl 52 18, tl 52 16, tl 52 14, tl 52 12, tl 52 14, tl 52 16, tl 52 18, tl 52 20, tl 51 21, tl 51 20, tl 51 19, tl 51 19, tl 51 20, tl 56 17, tl 56 16, tl 56 16, tl 56 17, tl 56 18, tl 56 19, tl 56 20, tl 56 22, tl 61 18, tl 61 17, tl 61 16, tl 61 14, tl 61 13, tl 61 12, tl 61 12, tl 61 13, tl 61 14, tl 61 16, tx, tx, tx, tx, tx, tx, tx, tx, tx, tx, tx, tx, tx, tx, tx],
   [tl 50 22, tl 50 23, tl 55 22, tl 52 20, tl 52 17, tl 52 15, tl 52 13, tl 52 10, tl 52 13, tl 52 15, tl 52 17, tl 52 20, tl 52 22, tl 51 22, tl 51 22, tl 56 18, tl 56 17, tl 56 15, tl 56 15, tl 56 15, tl 56 15, tl 56 17, tl 56 18, tl 56 19, tl 56 21, tl 61 18, tl 61 17, tl 61 15, tl 61 14, tl 61 12, tl 61 10, tl 61 10, tl 61 12, tl 61 14, tx, tx, tx, tx, tx, tx, tx, tx, tx, tx, tx, tx, tx, tx, tx, tx],
   [tl 55 17, tl 55 18, tl 55 20, tl 52 20, tl 52 18, tl 52 16, tl 52 14, tl 52 13, tl 52 14, tl 52 16, tl 52 18, tl 52 20, tl 52 23, tl 56 20, tl 56 19, tl 56 17, tl 56 15, tl 56 14, tl 56 13, tl 56 13, tl 56 14, tl 56 16, tl 56 17, tl 56 19, tl 56 20, tl 61 18, tl 61 17, tl 61 16, tl 61 14, tl 61 13, tl 61 12, tl 61 12, tl 61 13, tx, tx, tx, tx, tx, tx, tx, tx, tx, tx, tx, tx, tx, tx, tx, tx, tx],
   [tl 55 15, tl 55 16, tl 55 18, tl 55 20, tl 52 19, tl 52 17, tl 52 16, tl 52 15, tl 52 16, tl 52 17, tl 52 19, tl 52 21, tl 56 22, tl 56 20, tl 56 18, tl 56 16, tl 56 15, tl 56 13, tl 56 11, tl 56 11, tl 56 13, tl 56 15, tl 56 16, tl 56 18, tl 56 20, tl 61 19, tl 61 18, tl 61 16, tl 61 15, tl 61 14, tl 61 13, tx, tx, tx, tx, tx, tx, tx, tx, tx, tx, tx, tx, tx, tx, tx, tx, tx, tx, tx],
   [tl 55 13, tl 55 15, tl 55 17, tl 55 19, tl 52 21, tl 52 19, tl 52 18, tl 52 17, tl 52 18, tl 52 19, tl 52 21, tl 52 23, tl 56 22, tl 56 20, tl 56 18, tl 56 16, tl 56 15, tl 56 13, tl 56 11, tl 56 11, tl 56 13, tl 56 15, tl 56 16, tl 56 18, tl 56 20, tl 61 20, tl 61 18, tl 61 17, tl 61 16, tl 61 15, tx, tx, tx, tx, tx, tx, tx, tx, tx, tx, tx, tx, tx, tx, tx, tx, tx, tx, tx, tx],
   [tl 55 11, tl 55 13, tl 55 16, tl 55 19, tl 55 21, tl 52 21, tl 52 20, tl 52 20, tl 52 20, tl 52 21, tl 52 23, tl 59 20, tl 59 21, tl 56 20, tl 56 19, tl 56 17, tl 56 16, tl 56 14, tl 56 13, tl 56 13, tl 56 14, tl 56 16, tl 56 17, tl 56 19, tl 56 21, tl 56 22, tl 61 19, tl 61 18, tl 61 17, tx, tx, tx, tx, tx, tx, tx, tx, tx, tx, tx, tx, tx, tx, tx, tx, tx, tx, tx, tx, tx],
   [tl 55 13, tl 55 15, tl 55 17, tl 55 19, tl 55 22, tl 59 21, tl 52 23, tl 59 19, tl 59 18, tl 59 18, tl 59 18, tl 59 19, tl 59 20, tl 59 21, tl 56 19, tl 56 18, tl 56 17, tl 56 16, tl 56 15, tl 56 15, tl 56 16, tl 56 17, tl 56 18, tl 56 20, tl 56 21, tl 56 23, tl 61 20, tx, tx, tx, tx, tx, tx, tx, tx, tx, tx, tx, tx, tx, tx, tx, tx, tx, tx, tx, tx, tx, tx, tx],
   [tl 60 13, tl 60 14, tl 60 16, tl 60 18, tl 60 20, tl 59 20, tl 59 18, tl 59 17, tl 59 16, tl 59 16, tl 59 16, tl 59 17, tl 59 18, tl 59 20, tl 56 21, tl 56 19, tl 56 18, tl 56 17, tl 56 16, tl 56 16, tl 56 17, tl 56 18, tl 56 19, tl 56 21, tl 56 22, tl 61 23, tx, tx, tx, tx, tx, tx, tx, tx, tx, tx, tx, tx, tx, tx, tx, tx, tx, tx, tx, tx, tx, tx, tx, tx],
   [tl 60 11, tl 60 13, tl 60 15, tl 60 17, tl 60 20, tl 59 18, tl 59 17, tl 59 16, tl 59 15, tl 59 14, tl 59 15, tl 59 16, tl 59 17, tl 59 19, tl 59 20, tl 56 21, tl 56 20, tl 56 19, tl 56 18, tl 56 18, tl 56 19, tl 56 20, tl 56 21, tl 56 22, tx, tx, tx, tx, tx, tx, tx, tx, tx, tx, tx, tx, tx, tx, tx, tx, tx, tx, tx, tx, tx, tx, tx, tx, tx, tx],
   [tl 60 11, tl 60 13, tl 60 15, tl 60 17, tl 60 20, tl 59 18, tl 59 16, tl 59 15, tl 59 13, tl 59 12, tl 59 13, tl 59 15, tl 59 16, tl 59 18, tl 59 19, tl 59 21, tl 56 21, tl 56 21, tl 56 20, tl 56 20, tl 56 21, tl 56 21, tx, tx, tx, tx, tx, tx, tx, tx, tx, tx, tx, tx, tx, tx, tx, tx, tx, tx, tx, tx, tx, tx, tx, tx, tx, tx, tx, tx],
   [tl 60 13, tl 60 15, tl 60 16, tl 60 18, tl 60 20, tl 59 17, tl 59 15, tl 59 14, tl 59 12, tl 59 10, tl 59 12, tl 59 14, tl 59 15, tl 59 17, tl 59 19, tl 59 21, tl 56 23, tl 56 23, tl 56 22, tl 56 22, tx, tx, tx, tx, tx, tx, tx, tx, tx, tx, tx, tx, tx, tx, tx, tx, tx, tx, tx, tx, tx, tx, tx, tx, tx, tx, tx, tx, tx, tx],
   [tl 60 15, tl 60 16, tl 60 18, tl 60 20, tl 59 19, tl 59 17, tl 59 15, tl 59 14, tl 59 12, tl 59 10, tl 59 12, tl 59 14, tl 59 15, tl 59 17, tl 59 19, tl 59 21, tl 59 23, tx, tx, tx, tx, tx, tx, tx, tx, tx, tx, tx, tx, tx, tx, tx, tx, tx, tx, tx, tx, tx, tx, tx, tx, tx, tx, tx, tx, tx, tx, tx, tx, tx],
   [tl 60 17, tl 60 18, tl 60 20, tl 60 21, tl 59 19, tl 59 18, tl 59 16, tl 59 15, tl 59 13, tl 59 12, tl 59 13, tl 59 15, tl 59 16, tl 59 18, tx, tx, tx, tx, tx, tx, tx, tx, tx, tx, tx, tx, tx, tx, tx, tx, tx, tx, tx, tx, tx, tx, tx, tx, tx, tx, tx, tx, tx, tx, tx, tx, tx, tx, tx, tx],
   [tl 60 20, tl 60 21, tl 60 22, tl 59 22, tl 59 20, tl 59 19, tl 59 17, tl 59 16, tl 59 15, tl 59 14, tx, tx, tx, tx, tx, tx, tx, tx, tx, tx, tx, tx, tx, tx, tx, tx, tx, tx, tx, tx, tx, tx, tx, tx, tx, tx, tx, tx, tx, tx, tx, tx, tx, tx, tx, tx, tx, tx, tx, tx],
   [tx, tx, tx, tx, tx, tx, tx, tx, tx, tx, tx, tx, tx, tx, tx, tx, tx, tx, tx, tx, tx, tx, tx, tx, tx, tx, tx, tx, tx, tx, tx, tx, tx, tx, tx, tx, tx, tx, tx, tx, tx, tx, tx, tx, tx, tx, tx, tx, tx, tx]]

/-- src/faddeeva.rs:527-3552, rows 0-7: `dp m e`, `dn m e` stand for the literals `±m·10^-e` -/
def taylorRows_0 : List (List (Int × Nat)) :=
  [[dp 21428571428571427 17, dp 2857142857142854 16, dp 7200231235172582 16, dp 14709038623319354 17, dn 22452968937414297 17, dp 6538986452714254 16, dn 4850814342881062 16, dn 22306018468445818 17, dp 17649615311259467 17, dn 31167022583781706 17, dp 17910609704801556 17, dp 11970959466591027 17, dn 7226931588733519 17, dp 9393799970113276 17, dn 4559346219537337 17, dn 39730263354209566 18, dp 20196525624326014 18, dn 20685048101464012 18, dp 883890538314988 17, dp 9598084442250392 18, dn 4299614874936703 18, dp 3578425373986437 18, dn 1379030417762035 18, dn 18272856973388285 19, dp 7405526845849954 19, dn 507791902243448 18, dp 17920952602309186 20, dp 28741862775159485 20, dn 10720540276102013 20, dp 60769149934737586 21, dn 19839189350013016 21, dn 3854435333961694 20, dp 13392531365198603 21, dn 6245507444451652 21, dp 18981163127391057 22, dp 4507029853814266 21, dn 14719467952583254 22, dp 5573407513438984 22, dn 15816210307299138 23, dn 4673226430666518 22, dp 1444545178238265 22, dn 4336958028062149 23, dp 11481625488770814 24, dp 4353434051771203 23, dn 12807284108360786 24, dp 2929555104901235 24, dn 7181992473902865 25, dn 36820798449949937 25],
   [dp 21428571428571425 17, dp 0 0, dp 955119927982107 15, dp 23452781939565862 17, dn 40933711199233147 17, dp 1027867244497373 15, dn 8674048325551789 16, dn 45478508607366713 17, dp 3968063840741989 16, dn 6202755316543916 16, dp 3911874465553538 16, dp 2938506357140898 16, dn 192252906191567 15, dp 22292301531483466 17, dn 11666346507619649 17, dn 11387328442718478 17, dp 6207206289613322 17, dn 5672045634951288 17, dp 258405771853277 16, dp 31506916982662954 18, dn 15024295430188066 18, dp 11104216475320498 18, dn 4524217061486052 18, dn 6777278388332041 18, dp 2907958275416767 18, dn 17548986427206605 19, dp 650180524220886 18, dp 1192221349581078 18, dn 4688127189944769 19, dp 23068040603676937 20, dn 785315222664181 19, dn 17737898073719798 20, dp 6475212031163744 20, dn 25689416593363597 21, dp 8082008489240545 21, dp 2286048196518627 20, dn 7821644620425595 21, dp 2445969633710349 21, dn 7117713094292925 22, dn 25982909239185623 22, dp 8393860046183925 22, dn 19886242180593384 23, dp 5319028798682084 23, dp 2640904300019834 22, dn 810270403307344 22, dp 13549677654946422 24, dn 32570318884629134 25, dn 2427217566878316 23],
   [dp 571428571428572 15, dp 2857142857142859 16, dp 5884176686311969 16, dp 3403747013338351 16, dn 4779775062448912 16, dp 4031408406390165 16, dn 20010456773725405 17, dn 4341758942004471 16, dp 31218181202498674 17, dn 6524506401874448 17, dp 15367570016672305 19, dp 19113199224486674 17, dn 1033803272966767 16, dn 17764916277233752 18, dp 1748734179145567 17, dn 5048112504817993 17, dp 22561251992430784 18, dp 11889968593895706 18, dn 6745587975790053 18, dp 9310196320600535 18, dn 3565905377862037 18, dn 33961710948600637 19, dp 15625827186359542 19, dn 12701394031154117 19, dp 42001890816258737 20, dp 6682750607587062 19, dn 2686096319424909 19, dp 12804375624875903 20, dn 35375963008145686 21, dn 10226112497628566 20, dp 3708671480974383 20, dn 8500201384079158 21, dp 15673234104740196 22, dp 12869623823825306 21, dn 4288161601115219 21, dp 8729049236258563 23, dp 10682291623307438 23, dn 13758017736806225 22, dp 4260037459605236 22, dp 7426234628124201 23, dn 3463534894603207 23, dp 1275421885521555 22, dn 3697714926907465 23, dn 1372477828978932 23, dp 493750317168632 23, dn 1039376745806506 23, dp 28350973672811317 25, dp 16593962534728944 25],
   [dp 0 0, dp 357142857142857 15, dp 6969682576054363 16, dp 0 0, dp 0 0, dp 630544697377344 15, dn 4717737228278136 16, dp 0 0, dp 0 0, dn 3080360547211309 16, dp 18088042307084773 17, dp 0 0, dp 0 0, dp 9737436144975983 17, dn 4870128847007308 17, dp 0 0, dp 0 0, dn 228517268968627 16, dp 10134989358869816 18, dp 0 0, dp 0 0, dp 4273797297805218 18, dn 17217266362164478 19, dp 0 0, dp 0 0, dn 6652536232232574 19, dp 24735600941564264 20, dp 0 0, dp 0 0, dp 8875572173678451 20, dn 3080821962382729 20, dp 0 0, dp 0 0, dn 1036703815424616 20, dp 3388213249663851 21, dp 0 0, dp 0 0, dp 10772896463119916 22, dn 33371854971217427 23, dp 0 0, dp 0 0, dn 10085309999854896 23, dp 29769958542697825 24, dp 0 0, dp 0 0, dp 8592473518817663 24, dn 24273834545693587 25, dp 0 0],
   [dp 3571428571428575 16, dp 0 0, dp 8802485040505601 16, dp 37041090482564853 17, dn 6287489314646864 16, dp 8637999493629063 16, dn 6556953142417433 16, dn 6789108867409724 16, dp 5752838862721109 16, dn 41422118368456295 17, dp 22511839171513748 17, dp 41342351188558685 17, dn 26227332475386406 17, dp 10662797177588414 17, dn 43816449053395316 18, dn 15050164345899136 17, dp 7940630187389945 17, dn 15107824236069805 18, dp 3864263881750656 18, dp 3897432374296836 17, dn 17952532470529296 18, dp 26409397762119517 20, dp 5094709715448198 19, dn 7813728604138042 18, dp 32310142822037148 19, dp 4593678874544613 19, dn 27723410729340556 20, dp 12749447740554797 19, dn 48184647708115363 20, dn 14072389334769079 20, dp 6418887640319846 20, dn 17495517724528837 20, dp 6118958378209675 20, dp 27094384696134416 21, dn 10755287397814842 21, dp 206598264102979 19, dn 6746871730758656 21, dn 4055634603339256 21, dp 14627649382793738 22, dn 21345983867259866 22, dp 6552058611971754 22, dp 5071569652660115 22, dn 16967670315640797 23, dp 19534708991309825 23, dn 5662924177536336 23, dn 5494512219924934 23, dp 1726376657835408 23, dn 15974893816799534 24],
   [dp 49999999999999983 17, dp 0 0, dp 778800783071405 15, dp 47892517290104336 17, dn 7788007830714048 16, dp 6494539941944694 16, dn 3894003915357028 16, dn 8036521699982779 16, dp 649000652559504 15, dn 16508527279688703 17, dp 32450032627975425 18, dp 4430974031983607 16, dn 2660902675493967 16, dn 22585371520917306 18, dp 3353170038224096 17, dn 14393490581263402 17, dp 7123554781665035 17, dp 27015092693495512 18, dn 17287368572641532 18, dp 3260683986647157 17, dn 13909303006739909 18, dn 962633613927362 17, dp 4848404015202297 18, dn 5558734359366952 18, dp 2088200181661593 18, dp 22555824216285627 19, dn 9820840176721821 19, dp 7384905247587785 19, dn 24571664197315415 20, dn 40381964369353107 20, dp 15784890552267988 20, dn 7665438613028758 20, dp 2223895856157523 20, dp 5895291156782331 20, dn 21121048100433436 21, dp 5897241293296991 21, dn 13739334719245314 22, dn 7282533201702565 21, dp 24231127595995222 22, dn 25066385471618997 23, dp 17092325486817965 24, dp 7797752767432274 22, dn 2431658922342931 22, dn 13922378365542361 24, dp 995148767907891 23, dn 736013416724244 22, dp 21653649854068516 24, dp 4611186291068596 24],
   [dp 6428571428571427 16, dp 0 0, dp 6614867630574851 16, dp 5550039700556801 16, dn 8504829810739092 16, dp 41480263416678115 17, dn 11474770379568648 17, dn 8216628063057537 16, dp 6161662413902813 16, dp 7560611325794499 17, dn 1406795828347471 16, dp 38652943817710883 17, dn 2102917466843204 16, dn 1296357294058631 16, dp 919557114248891 16, dn 10106406118635133 17, dp 43193531648091504 18, dp 556015665787601 16, dn 29930745442522697 18, dp 16330049239287103 18, dn 5322741810961538 18, dn 14688767861209926 18, dp 6670501607056737 18, dn 13774539799875738 19, dp 18810221935001195 20, dp 2831686180218534 18, dn 1131904077058862 18, dn 7381928454929486 20, dp 8300775409483066 20, dn 42834321936391015 20, dp 15407742134663873 20, dp 4988325467311549 20, dn 24274336661403594 21, dp 5283672170511145 20, dn 1730906132946705 20, dn 10481214828300177 21, dp 4164892985082804 21, dn 5423387986696292 21, dp 16257366805301071 22, dp 15519642815592785 22, dn 5484220444806784 22, dp 46586280661439543 23, dn 12731796519353854 23, dn 18514475143828185 23, dp 6002564836375064 23, dn 3303249339902721 23, dp 8066368035297298 24, dp 18761811433293446 24],
   [dp 857142857142857 15, dp 2857142857142858 16, dp 4426248972032534 16, dp 4198077296943961 16, dn 5188954068087792 16, dp 15578026064611736 17, dp 4665124024601942 17, dn 405077836874274 15, dp 2421147364225514 16, dp 11873359202197935 17, dn 11012713687239181 17, dp 11706527379592421 17, dn 4570913063609489 17, dn 7504414361054954 17, dp 4262173593820061 17, dn 13227323506475359 18, dp 15419939514493837 19, dp 2120120303821623 17, dn 947148961427386 17, dn 13464264852453077 19, dp 1375940541428789 18, dn 38535518453172712 19, dp 14382194388774213 19, dp 8512690110218056 19, dn 4300873350966867 19, dp 4932677915152006 19, dn 15477324948884354 20, dn 1918646465726302 19, dp 781433307574639 19, dn 4378330026797661 20, dp 10754819619207515 21, dp 29580931961251903 21, dn 10521340363714067 21, dp 20473880165697116 22, dn 14394498426837112 23, dn 3541217341084883 21, dp 11332876936040155 22, dp 12106685544635384 23, dn 8809488191829821 23, dp 3459610296461591 22, dn 10094018803648123 23, dn 4130893837841857 23, dp 16281248927001965 24, dn 2817133144542343 23, dp 7517702854455918 24, dp 5790857951938321 24, dn 1915496671582761 24, dp 19145294376288603 25]]

/-- src/faddeeva.rs:527-3552, rows 8-15: `dp m e`, `dn m e` stand for the literals `±m·10^-e` -/
def taylorRows_1 : List (List (Int × Nat)) :=
  [[dp 3571428571428575 16, dp 5714285714285718 16, dp 5422361110480248 16, dp 15757990254002804 17, dn 20722019070284306 17, dp 39612368122632075 17, dn 2418725108105402 16, dn 1806411082906609 16, dp 12691982655081985 17, dn 128930757582422 15, dp 61434641354788794 18, dp 7708109612767156 17, dn 4192577169897284 17, dp 26518514133635405 18, dn 10435904938168938 18, dn 2086480340151895 17, dp 9637181658455361 18, dn 3743835537917332 18, dp 1213679938191957 18, dp 4173731643628733 18, dn 17079220596873804 19, dp 34659682233592533 20, dn 8113048939375831 20, dn 6643121520711835 19, dp 2467800528054889 19, dn 11451309573986592 21, dn 2258141536984789 21, dp 8789745540979271 20, dn 3011483943201735 20, dn 2869272645244762 21, dp 16248367093460798 22, dn 9952033643415665 21, dp 31796885652779727 22, dp 7326789673879657 22, dn 2927207590904577 22, dp 9841747111487113 22, dn 29561881032982883 23, dn 10787069770127242 23, dp 3740650077226487 23, dn 863027141661664 22, dp 2452036937914998 23, dp 12349258138876144 24, dn 3910705661403207 24, dp 67880625185624915 25, dn 1832837706480161 24, dn 11941787839853933 25, dp 3529911527283283 25, dn 483112205766926 24],
   [dp 785714285714285 15, dp 0 0, dp 5393735320222423 16, dp 5978657711144957 16, dn 8475869788920942 16, dp 18887581248702015 17, dp 12658766567868834 17, dn 7462681952114399 16, dp 4987501610487499 16, dp 26498517964321666 17, dn 25923139610849577 17, dp 2690327770315992 16, dn 11802733992825852 17, dn 19054723035293208 17, dp 11732238773166151 17, dn 3977236534666996 17, dp 7384418243823343 18, dp 6337055599498813 17, dn 30781107659380674 18, dn 25046964480623097 19, dp 37334972831692117 19, dn 13645017825415055 18, dp 5569529101663831 18, dp 2645156376463397 18, dn 14744647023723512 19, dp 21030328495417324 19, dn 7351701868714022 19, dn 7162565549457928 19, dp 31570744932745424 20, dn 2369630526283576 19, dp 695877619754861 19, dp 12892025865462276 20, dn 4938447306966386 20, dp 18089141824725306 21, dn 384820949902235 20, dn 1789164447532765 20, dp 6165654852643192 21, dn 47428484300462446 23, dn 11069262216477897 23, dp 20293663168860157 22, dn 6398612713773844 22, dn 11791760664422114 23, dp 6134407639612948 23, dn 19367167688084135 23, dp 5634879563895209 23, dp 25722686657879926 24, dn 9601648192040813 24, dp 1576918131879935 23],
   [dp 1214285714285713 15, dp 28571428571428537 17, dp 2723147792151456 16, dp 43064033059276274 17, dn 41525570346948876 17, dn 7307008103842176 17, dp 21104712327254121 17, dn 22326788834053976 17, dp 6346224759892798 17, dp 1892546068208054 16, dn 11701783956121896 17, dn 12336673913637256 18, dp 30042431728605136 18, dn 5633627659184477 17, dp 21480554954842853 18, dp 24053819284234793 18, dn 14072412271344101 18, dp 5997361727233967 18, dn 6697734615359749 19, dn 6828910183158716 18, dp 28743536494014944 19, dp 5525000441042288 19, dn 5325311914557828 19, dp 10673546745263455 19, dn 3495909368671071 19, dn 3084403288127783 19, dp 1448181106175079 19, dn 9882281078670456 20, dp 22385428488956597 21, dp 595481312558554 19, dn 2214095212177501 20, dp 287407556845405 20, dp 7094903761771298 22, dn 75616125119866146 22, dp 2389870921981183 21, dp 7631463682205992 22, dn 39922760896871846 23, dp 700248766555779 21, dn 18944705150035908 23, dn 1665981567512837 22, dp 6122852461701523 23, dn 467182395564485 22, dp 10175006030642683 24, dp 2058335834649668 23, dn 6447898052878585 24, dp 1792096855627654 24, dn 16667162407500712 26, dn 19015653973059044 25],
   [dp 7857142857142855 16, dp 5714285714285714 16, dp 4204205303152952 16, dp 2868685160005906 16, dn 332811100780503 15, dp 1971051787342473 16, dn 46294563282473035 18, dn 25155909884578315 17, dp 15029156267942764 17, dp 18001623394473143 18, dn 30752511298689136 18, dp 7576703660951209 17, dn 33133370295723136 18, dn 2398400113822125 17, dp 14360243388781722 18, dn 12663036610641679 18, dp 41755145709875836 19, dp 7350764725344941 18, dn 3360141962875857 18, dp 11253568571837234 19, dn 1982982149955868 19, dn 14033094584260837 19, dp 5428113168257827 19, dp 18111339458278337 21, dn 39608555317911234 21, dp 19616385908205 17, dn 6659944588580396 20, dn 24934437616370908 21, dp 1195206789300696 20, dn 2131010600310097 20, dp 6433047424013992 21, dp 4978334178767833 21, dn 1888245702248654 21, dp 18296707493795765 22, dn 4879874572895008 22, dn 667116885070855 21, dp 22240644353864557 23, dn 12078323611108118 23, dp 27135616144756044 24, dp 7054762253892618 23, dn 2141203764527778 23, dp 5247041567435341 24, dn 7313562813503311 25, dn 62434847973180934 25, dp 17541875357156316 25, dp 7283000525216853 27, dn 5843383733614008 26, dp 475942687473707 24],
   [dp 9285714285714282 16, dp 0 0, dp 422213192102104 15, dp 6104910694743664 16, dn 7841102139039071 16, dn 5389961928310146 18, dp 3058891493800951 16, dn 6054861048266498 16, dp 33338019298635546 17, dp 3784180395115612 16, dn 3077282357194268 16, dp 12704896264010013 17, dn 19053018213040847 18, dn 1985568304995188 16, dp 1084734413533692 16, dp 19108412369817657 18, dn 2333494862471892 17, dp 51660944207870076 18, dn 21701318693318268 18, dn 16769822283567104 18, dp 9663594027923845 18, dn 8019770305139822 18, dp 254559627633494 17, dp 4843350370525102 18, dn 2186793090692052 18, dp 6404315513653404 19, dn 8583378202014873 20, dn 9063394685131053 19, dp 348691675120337 18, dp 3094913595116041 20, dn 339930492681867 19, dp 12537156930426927 20, dn 4228356010665039 20, dn 19648745754969004 21, dp 9157044385188113 21, dn 13390788173617615 21, dp 3974187096518152 21, dp 3774476359887353 21, dn 1427484552756901 21, dp 10984352520008812 22, dn 27880691853695053 23, dn 5046791527401083 22, dp 1686376691398355 22, dn 6298046101707811 23, dp 11639504494554059 24, dp 5363438184750701 23, dn 16313252768746102 24, dp 11979187676720954 25],
   [dp 0 0, dp 9285714285714292 16, dp 4479162128485902 16, dp 0 0, dp 0 0, dp 29653477180527316 17, dn 17256249617226493 17, dp 0 0, dp 0 0, dn 9086544547782754 17, dp 44093719828569654 18, dp 0 0, dp 0 0, dp 1996851082623371 17, dn 8517177068069924 18, dp 0 0, dp 0 0, dn 3445629585354343 18, dp 13294159704173652 19, dp 0 0, dp 0 0, dp 4913715330084928 19, dn 17462848081046717 20, dp 0 0, dp 0 0, dn 59857548202374344 21, dp 1984107862756754 20, dp 0 0, dp 0 0, dp 6374413765657831 21, dn 19888543044121806 22, dp 0 0, dp 0 0, dn 6036827310652502 22, dp 17853647105287743 23, dp 0 0, dp 0 0, dp 5151751353971508 23, dn 14522086656539584 24, dp 0 0, dp 0 0, dn 4003444082864635 24, dp 10804602865308135 25, dp 0 0, dp 0 0, dp 28572947915104966 26, dn 7410364144459572 26, dp 0 0],
   [dp 10714285714285712 16, dp 0 0, dp 31728362670156474 17, dp 5985087983633739 16, dn 6798934857890672 16, dn 15413968654028834 17, dp 41117367950100703 17, dn 433359134213065 15, dp 159566838501516 15, dp 4123020297504767 16, dn 2910690746620299 16, dn 41965202597942395 19, dp 6091715374026354 17, dn 16312230321742172 17, dp 7526689855153491 17, dp 59656805521391534 18, dn 4044578838034108 17, dp 2834408494332717 17, dn 7983031321720941 18, dn 2250636699016766 17, dp 1088867471667602 17, dn 940026735778818 18, dn 7366811749435297 19, dp 4702707698557564 18, dn 18362497196014458 19, dn 7451979373696103 19, dp 45068193146703683 20, dn 6507135561816874 19, dp 20821172640016143 20, dp 2219063128120863 19, dn 9625227486266262 20, dp 5899382749349317 20, dn 14011238539641153 21, dn 3801519801687243 20, dp 13908039519391909 21, dn 22829072737126607 22, dn 10473322046976856 23, dp 4760137658335327 21, dn 15328694838447637 22, dn 3130266908178782 22, dp 18390456649810682 23, dn 4657633598077174 22, dp 13358288768825064 23, dp 8120588620404324 23, dn 31145627525831664 24, dp 36072100301002686 24, dn 9110233862000221 24, dn 10895869554361336 24],
   [dp 5000000000000004 16, dp 9285714285714284 16, dp 4074033926239229 16, dp 13750723344288882 17, dn 15203281622998693 17, dp 23426563306533843 17, dn 11385461094825801 17, dn 11346672061914172 17, dp 6906544456232294 17, dn 4787342267873292 17, dp 17433998089850827 18, dp 36635616718175605 18, dn 17505462661862693 18, dp 5346760723056308 18, dn 12388058386938242 19, dn 7684641535991373 18, dp 31397505748785035 19, dn 10117721362916228 20, dn 10625492963598418 20, dp 12049368665332646 19, dn 43727848057007493 20, dn 894724284072507 19, dp 48362525851429236 21, dn 15083126978862824 20, dp 49643565451543856 21, dp 21814546105887384 21, dn 8821324056003342 21, dp 15637733374160878 21, dn 4724946308412079 21, dn 3298797432675892 21, dp 11600897379402528 22, dn 13715549306139184 22, dp 38284196242101326 23, dp 3876464950336823 22, dn 12394415743457828 23, dp 10277944689183845 23, dn 26521391279480988 24, dn 3811120178205803 23, dp 11312875554553243 24, dn 6566315534746659 24, dp 15544905795425151 25, dp 32515312141567435 25, dn 9070841859750383 25, dp 34970943895216654 26, dn 73925551737359 24, dn 2461041404978509 25, dp 6504742622948045 26, dn 14364746683504591 27]]

/-- src/faddeeva.rs:527-3552, rows 16-23: `dp m e`, `dn m e` stand for the literals `±m·10^-e` -/
def taylorRows_2 : List (List (Int × Nat)) :=
  [[dp 1214285714285713 15, dp 5714285714285722 16, dp 27969439054709 14, dp 328705446360758 15, dn 30359443834492256 17, dp 10443779594140678 18, dp 9492387292553885 17, dn 16790464252797282 17, dp 61589483660522505 18, dp 9279881072634542 17, dn 58341605620559324 18, dp 10013190848556008 18, dp 5990287174018303 18, dn 28647849989423223 18, dp 11565828495574604 18, dp 711682096543485 17, dn 4562215043623376 18, dp 38277003158150172 19, dn 9596846548201243 19, dn 22894406881420726 19, dp 9820654640878216 19, dn 11094976959419109 20, dn 5924465541092487 20, dp 37259702863410974 20, dn 12676598865157013 20, dn 5593370739186733 20, dp 30202110996365463 21, dn 3870663650003846 20, dp 10457525958060013 21, dp 13180965230943644 21, dn 50526507488631355 22, dp 23893499429593515 22, dn 39424286798563945 23, dn 1759345297834427 21, dp 5657542576532529 22, dn 34650553067908213 25, dn 3467346782151818 23, dp 16944290797202848 23, dn 47425138019075414 24, dn 20274848560771938 24, dp 84921587017997 22, dn 1239193369866671 23, dp 3003212605336623 24, dp 30469534508124522 25, dn 9902667245538685 25, dp 6643752535702673 25, dn 12919116966710926 26, dn 29889346640024614 26],
   [dp 12142857142857142 16, dp 0 0, dp 22889548066710624 17, dp 5688359100555797 16, dn 555889024477258 15, dn 25307947161089506 17, dp 4461126204838498 16, dn 26152512309949283 17, dp 9453894974103112 18, dp 3804304616782814 16, dn 22879617504763036 17, dn 10021307589778154 17, dp 1073480127477792 16, dn 10349726209239009 17, dp 3281500557034711 17, dp 7529610757475173 17, dn 4205565863601653 17, dp 34475069494424864 19, dp 4563144979061095 18, dn 19870591503340116 18, dp 8114377083495123 18, dp 459579298832678 17, dn 288326343037532 17, dp 28579971463600913 19, dn 838776634448718 18, dn 14665851081129412 19, dp 6502963191771749 19, dn 17952396679906283 20, dp 7558631387583298 21, dp 2591659225182994 19, dn 942106653272384 19, dn 19311072934940912 21, dp 14245337820351301 21, dn 3142890167011615 20, dp 9614094389601478 21, dp 71843424060816725 22, dn 3049364152169272 21, dp 26711832141028377 22, dn 6568105624408182 22, dn 11586580025785052 22, dp 4049389300140129 22, dn 13307803724515145 23, dp 1650990045666597 23, dp 13202527620904748 23, dn 4047492059836396 23, dn 259413043620195 23, dp 2967110673888725 24, dn 11715932789033971 24],
   [dp 14285714285714295 16, dp 0 0, dp 12992260830505914 17, dp 5060883077209747 16, dn 3712074523001692 16, dn 3175874263929874 16, dp 40037375212375437 17, dn 52391984302420896 18, dn 1338367004891773 16, dp 26162207883572586 17, dn 1045892328553219 16, dn 16067692130287956 17, dp 11329995611299776 17, dn 12833447932644815 18, dn 1908928243536786 17, dp 59670139449838344 18, dn 24579872181114515 18, dn 20688459549790615 18, dp 13550846387811441 18, dn 7528799308962932 18, dp 1160337821894829 18, dp 6987530474227418 18, dn 30416943695322396 19, dn 4906774165581058 19, dp 5790799725210029 19, dn 1143011406597685 18, dp 36907287765513435 20, dp 35392514242579994 20, dn 1702041447076564 19, dp 9806216311924818 20, dn 17989157071619908 21, dn 7057342098312412 20, dp 26120392069900838 21, dp 3676012951715119 22, dn 24157110928155212 22, dp 8756034534467031 21, dn 26669854380025317 22, dn 15148496539642177 22, dp 6917433655513331 22, dn 7324404000258259 22, dp 17671375053390056 23, dp 26959927184974116 23, dn 9441915805997626 23, dp 347298583097624 22, dn 398373704949035 23, dn 30401271918990645 24, dp 9100928271619966 24, dp 7909572859944136 25],
   [dp 928571428571428 15, dp 9285714285714278 16, dp 3271064340097439 16, dp 21456415724047362 17, dn 20900708542864474 17, dp 12241949763082366 17, dn 19353178311666278 18, dn 134161397142497 15, dp 6826630243810611 17, dp 13419834003456674 18, dn 15787842617396942 18, dp 29154992366237233 18, dn 10613467981321192 18, dn 10332874936666204 18, dp 5349464433906478 18, dn 3234938933178221 18, dp 7549246523754217 19, dp 23912534204869294 19, dn 9575040730221627 19, dp 7837196638008136 20, dp 4599116474560732 20, dn 3499814365153962 19, dp 11796304579881766 20, dp 4078094290980164 20, dn 21392774597346884 21, dp 3683205529874673 20, dn 10649522053978937 21, dn 918623630780263 20, dp 3500236912781851 21, dn 2832790279992242 21, dp 6812648494861425 22, dp 12237806334997134 22, dn 39952963415970947 23, dp 1418425965816693 22, dn 2232025797471496 23, dn 1230624766114417 22, dp 3599803391561753 23, dn 8052168279271835 25, dn 1317132127143425 24, dp 10042603574763569 24, dn 26789166217583055 25, dn 7681059641209115 25, dp 309145630923529 24, dn 6841796887875726 25, dp 16728982005695213 26, dp 10631922618996821 26, dn 3325101657922206 26, dp 39101285985818536 27],
   [dp 15714285714285714 16, dp 3571428571428574 16, dp 16297562240844543 17, dp 36601326382669447 17, dn 25077105340747513 17, dn 1383593923658454 16, dp 18167910710121352 17, dn 59030271034839085 18, dn 3720461731886862 17, dp 11082390097058226 17, dn 4181737191246314 17, dn 5091710500966854 17, dp 3389317998542877 17, dn 6350612680375081 18, dn 4570471816829151 18, dp 16263977361344464 18, dn 597212761263345 17, dn 502135847633023 17, dp 30404753666409437 19, dn 15600921163641099 19, dp 14156933220550773 20, dp 14193439427845859 19, dn 5512065818224492 19, dn 14417319675986983 20, dp 12238582033009644 20, dn 18107755793707556 20, dp 4903590843531893 20, dp 6416907056670663 20, dn 27157649641371792 21, dp 9650403477746342 21, dn 416147026485243 21, dn 9947832818749523 21, dp 3234506337791741 21, dp 8174038900615901 22, dn 5468398358064013 22, dp 9385200195730325 22, dn 24000010288637295 23, dn 2466966026255207 22, dp 9287521390208108 23, dn 516821785859455 22, dp 7957412343110596 24, dp 31025445835621694 24, dn 9429920264281855 24, dp 8597357885762376 27, dp 6537242163270835 25, dn 26353454574883075 25, dp 6783131406059 22, dp 35447153229030307 26],
   [dp 5000000000000001 16, dp 1285714285714286 15, dp 33633358995114265 17, dp 9504461414413161 17, dn 9193315358051853 17, dp 16847675021987105 17, dn 7375404859247768 17, dn 6108322036482902 17, dp 33516405890841934 18, dn 28739004088561563 18, dp 1002284876659592 17, dp 16180100274727938 18, dn 7089937682653016 18, dp 31049736433725623 19, dn 8285903184063243 19, dn 28723176443343993 19, dp 10889294324074959 19, dn 1724241176645149 19, dp 15609362729907128 21, dp 38961939394639754 20, dn 1323988651076053 19, dn 9434391102538152 21, dp 7692027681269296 21, dn 42935017222784323 21, dp 1333648841204508 20, dp 3820390879638664 21, dn 15747234593879735 22, dp 39796513517226 19, dn 11434510903506426 22, dn 5823957088792963 22, dp 1996649316740693 22, dn 31690029934336483 23, dp 8482338433342803 23, dp 6455117380552815 23, dn 19885282189923745 24, dp 21945759430059875 24, dn 5489972568045784 24, dn 5877324956883914 24, dp 16748564238995432 25, dn 13276178658557675 25, dp 3100639052627094 25, dp 46186811148250663 26, dn 12360579474819607 26, dp 6980302176338877 26, dn 1509659672584735 26, dn 3217598916755976 26, dp 8162269471036368 27, dn 31186470094108566 28],
   [dp 17142857142857126 16, dp 0 0, dp 52930501932709054 18, dp 41610794719192845 17, dn 18147600662643087 17, dn 29827665184824076 17, dp 2581712237126007 16, dp 9522345597648377 17, dn 17406882268249424 17, dp 9002429440189344 17, dp 20116236157265988 18, dn 12477540890415047 17, dp 5583353856515817 17, dp 4955056263066001 17, dn 3861029123251235 17, dp 1327719575053018 17, dp 29587234626138994 19, dn 20660419894733963 18, dp 8384548467007846 18, dp 5535166731539145 18, dn 38516078045203604 19, dp 2482569475703748 18, dn 3563584461374469 19, dn 19582000236919705 19, dp 8113650905270618 19, dp 15897179102278923 20, dn 17242552293720485 20, dp 2809461588945315 19, dn 7935053535039508 20, dn 98552888876789 18, dp 4406500172990151 20, dn 1599976419878069 20, dp 5080709846466276 22, dp 16797474143293162 21, dn 5616997570090538 21, dn 15994882201438026 22, dp 10730667890514285 22, dn 16535875690979249 22, dp 4197171670161371 22, dp 4926899741298682 22, dn 1886928350008066 22, dp 8515538788160994 23, dn 962437355861832 23, dn 6386706390697709 23, dp 19542072485837634 24, dp 2317238798808907 24, dn 21705747392171835 25, dp 5444968594326399 24],
   [dp 14999999999999987 16, dp 9999999999999996 16, dp 2118365859685108 16, dp 2331709774044425 16, dn 169167803096647 15, dp 5193062945164275 18, dp 4710818162162376 17, dn 7179276872554198 17, dp 1780850795911298 17, dp 36925272347683245 18, dn 18447835606304988 18, dn 7018238775479049 19, dp 36645686291186283 19, dn 6969880370022565 18, dp 1993700764201496 18, dp 2497358601154372 18, dn 11879317640761426 19, dp 35146905831128997 20, dp 349164850560015 19, dn 4591576061362911 19, dp 1503109845235221 19, dp 6718908129714324 20, dn 3863877610882825 20, dp 4161259993341086 20, dn 922549462306708 20, dn 1653985547062386 20, dp 5989527095467501 21, dn 1262887017401335 21, dn 15718200577469184 23, dp 1914562907885902 21, dn 5484558827027946 22, dn 20739647695040338 23, dp 10299591371713063 23, dn 14066830796766706 23, dp 3166171301992898 23, dp 3942537814809665 23, dn 13066247658697344 24, dp 5866885614775667 24, dn 6883839907897016 25, dn 39066065457292005 25, dp 1072864957805547 24, dp 7172717837977159 26, dn 8491862675388459 26, dp 2726150820353997 25, dn 6408304148945911 26, dn 3768868330276059 26, dp 13032227789573872 27, dn 1381809232652725 26]]

/-- src/faddeeva.rs:527-3552, rows 24-31: `dp m e`, `dn m e` stand for the literals `±m·10^-e` -/
def taylorRows_3 : List (List (Int × Nat)) :=
  [[dp 18571428571428572 16, dp 357142857142857 15, dp 10507253696685909 17, dp 32390464293617044 17, dn 1589089637796407 16, dn 14974703307230555 17, dp 13656302681236454 17, dp 10950191262268684 18, dn 6053153561405548 17, dp 53758969339593794 18, dn 24738429539175803 19, dn 4458493580110439 17, dp 1968104961123177 17, dp 11970056424113971 18, dn 9933885867062144 18, dp 5108628241246175 18, dp 1691730447469767 19, dn 5117054997442561 18, dp 1948046928361354 18, dp 10835137380772364 19, dn 7555567313248683 19, dp 5353520338473164 19, dn 7073459733394 17, dn 36157945080695996 20, dp 13777917552202333 20, dp 2934818485439259 20, dn 2910991995982719 20, dp 42978138422299 18, dn 10518240068585987 21, dn 15195127331232246 21, dp 6173851883312808 21, dn 1571728846502221 21, dn 2011755451280027 22, dp 21212140307594777 22, dn 6303329646361952 22, dn 28697752877745816 23, dp 14932963923063716 23, dn 1603690408339311 22, dp 32859092704289763 24, dp 590526370509003 22, dn 19922467475834233 24, dp 4101522893459992 24, dp 5604605069923803 25, dn 5955458404024235 24, dp 15956821731956204 25, dp 643661873885907 24, dn 29945372877629816 26, dp 38092726019043904 26],
   [dp 17142857142857129 16, dp 785714285714286 15, dp 1706415113862612 16, dp 2651571464291856 16, dn 168381094649889 15, dn 4888199569724784 17, dp 796045113942821 16, dn 49060008008990796 18, dn 4420620783962939 18, dp 4695897650667355 17, dn 1756498282612249 17, dn 13983874836096453 18, dp 9417875874438843 18, dn 36742246839933605 19, dn 488946022493909 18, dp 4294262035770562 18, dn 14873199042615064 19, dn 9437701435745581 19, dp 5742759006762626 19, dn 3769404662164627 19, dp 4592876055634455 20, dp 253052671298413 18, dn 9083676397910572 20, dn 18590199289303135 21, dp 1730633111074516 20, dn 27238548200835633 21, dp 6627841890957198 21, dp 8614503626810734 21, dn 3369201110313041 21, dp 11174211754693648 22, dp 37007459619914645 25, dn 11261219058486894 22, dp 330406254066278 21, dp 10802210550681435 23, dn 6065461946860346 23, dp 8516702995525936 23, dn 18765876976248377 24, dn 24278297326613323 24, dp 8194321026965575 24, dn 3200274895207774 24, dp 2319966103234445 25, dp 24553776598567796 25, dn 666280419763258 24, dn 11912270012294086 26, dp 7777161788052794 26, dn 1645391688275408 25, dp 3669789734058438 26, dp 30916688681145064 27],
   [dp 107142857142857 14, dp 142857142857143 14, dp 2549353809201791 16, dp 14934558734414394 17, dn 1195884238456857 16, dp 7996610587183503 17, dn 12567632697180134 18, dn 6418295242727305 17, dp 2757587503580187 17, dp 4503402768905097 18, dn 5272257585657274 18, dp 9981885419007441 18, dn 3066876523891948 18, dn 30665933810467777 19, dp 13924496770629854 19, dn 7716658255372276 19, dp 13502468709791738 20, dp 5440469627847664 19, dn 18997725945812886 20, dn 10335111822972828 22, dp 14899096013573659 21, dn 603430098744395 19, dp 1756192849602012 20, dp 8880462634246855 21, dn 382346777851163 20, dp 4679956218286332 21, dn 11299506892961976 22, dn 14054341021847404 22, dp 46559480433968037 23, dn 23998749161883075 23, dp 4117997706811172 23, dp 14248973181709394 23, dn 408212598136697 22, dp 3798851086142752 24, dp 998002142627998 24, dn 11030480495161266 24, dp 2822840297048154 24, dp 7757415913349601 25, dn 32380795734773817 26, dp 685188866041827 24, dn 15758546975655294 26, dn 11024102347640648 26, dp 33516235569203525 27, dn 34195138409345855 27, dp 6935716155556266 27, dp 9428412880447665 27, dn 2498018069436622 27, dp 12895546845000112 28],
   [dp 20714285714285725 16, dp 0 0, dp 13693742168408045 18, dp 32409916555972074 17, dn 5673121755483335 17, dn 2143173759376169 16, dp 10382092276660397 17, dp 11984397031105734 17, dn 10555093878399284 17, dn 22620565518763253 18, dp 57410153785833515 18, dn 3649354229680958 17, dn 5348037623236372 18, dp 3928573268200468 17, dn 15444025283995579 18, dn 14961348943400054 18, dp 1066835224410574 17, dn 236981914672375 17, dn 16636760911272947 19, dp 4967565008260528 18, dn 16049257900760123 19, dn 17600304315146488 19, dp 9976330455426644 19, dn 2643575371674649 19, dn 8392723713861182 20, dp 4195687612865139 19, dn 13729729476878047 20, dn 10079153044005239 20, dp 5666596558500221 20, dn 3242866236538103 20, dp 28453992326312404 22, dp 23995026885273304 21, dn 8341334247012733 21, dn 2303376252929445 21, dp 18041348563083213 22, dn 24029684380256454 22, dp 5416703245818228 22, dp 856582791964336 21, dn 32512958254912195 23, dp 698464854396292 22, dp 13874987592323484 24, dn 10539629447556356 23, dp 29638853682216616 24, dp 14847441025975255 24, dn 7168548184195993 24, dp 7108655325881681 24, dn 13445198325282381 25, dn 26884102520404055 25],
   [dp 22142857142857157 16, dp 4285714285714286 16, dp 718186403618604 16, dp 267450943267793 15, dn 8881031308727369 17, dn 11760527340059473 17, dp 7443050715970514 17, dp 31022296299498514 18, dn 4180321718723992 17, dp 11342838065030515 18, dp 11497487891383908 18, dn 19111458038767352 18, dp 32615476501672395 19, dp 10419158255515931 18, dn 47513775738443715 19, dn 1785780459029872 18, dp 18554358149521436 19, dn 12653215490659336 19, dp 25157972784091354 21, dp 948094277816952 18, dn 33440369680531954 20, dn 18773601209693666 20, dp 12696981299151447 20, dn 7781544762286243 20, dp 36194138545499676 22, dp 5556836581450342 20, dn 18528202577205132 21, dn 779666138877182 20, dp 5240906786780538 21, dn 46713340976691255 22, dp 7030481745373499 22, dp 22706038341822985 22, dn 776605384957063 21, dn 8769838609054894 23, dp 12237412655002478 23, dn 21794795892859626 23, dp 48497392544340615 24, dp 6092369220801702 23, dn 22627895137514322 24, dp 6917877867347423 24, dp 4812670740320332 25, dn 7004650631390395 24, dp 18560239202990366 25, dp 8386162641860448 25, dn 403012129119744 24, dp 4145024566524075 25, dn 7145418273740256 26, dn 14397487714357665 26],
   [dp 0 0, dp 1785714285714287 15, dp 280364634660523 15, dp 0 0, dp 0 0, dp 1270769004507868 16, dn 5344159814126075 17, dp 0 0, dp 0 0, dn 21096983465690257 18, dp 7884206690549778 18, dp 0 0, dp 0 0, dp 28072171787405426 19, dn 9571062904567448 19, dp 0 0, dp 0 0, dn 3137425151214074 19, dp 9921294979212923 20, dp 0 0, dp 0 0, dp 3035034074438842 20, dn 9003182549715692 21, dp 0 0, dp 0 0, dn 25951325542668235 22, dp 7281695457065363 22, dp 0 0, dp 0 0, dp 19920458370408913 23, dn 53206724972339546 24, dp 0 0, dp 0 0, dn 13892343309988174 24, dp 3549871132705795 24, dp 0 0, dp 0 0, dp 8886220842200799 25, dn 21811622025697716 26, dp 0 0, dp 0 0, dn 525398772380202 25, dp 12429501090336959 27, dp 0 0, dp 0 0, dp 28899371025432557 28, dn 6608090110463375 28, dp 0 0],
   [dp 6428571428571431 16, dp 2000000000000002 15, dp 23900901733977822 17, dp 647404468666305 16, dn 4833552054176414 17, dp 8910538033644509 17, dn 29725422032896593 18, dn 25351435999388258 18, dp 11161232280852163 18, dn 8904789704506257 18, dp 2370382364525262 18, dp 4376739552433252 18, dn 15726281641293275 19, dp 5401626766994543 19, dn 9302725425249937 20, dn 5262435530652237 19, dp 1656983693929959 19, dn 4516783206844072 21, dn 5631673121314403 21, dp 4943761515662211 20, dn 14045061730550673 21, dn 35558210177298208 22, dp 15097998682417524 22, dn 3812321351110313 21, dp 99087879977201 20, dp 5430907804862494 22, dn 1767686369014003 22, dp 24690566068514077 23, dn 5898930731331413 23, dn 53581319117962044 24, dp 15361099460576458 24, dn 13497416048546069 24, dp 29492643607801833 25, dp 42048040684975426 25, dn 11059308730103634 25, dp 6119748746546593 25, dn 11933635885293116 26, dn 28074761669384303 26, dp 6901687447931632 26, dn 21424616246337825 27, dp 33809616445844315 28, dp 16472298454962288 27, dn 3824575291233885 27, dp 4073358236121767 28, dn 1025090028527961 29, dn 8652387253566852 28, dp 19097160954451095 29, dp 15399170166412502 30],
   [dp 2214285714285717 15, dp 10714285714285727 16, dp 12077665258403474 17, dp 2058022483506168 16, dn 9386321497797509 17, dn 4183790256586632 17, dp 42236999260910686 18, dn 12593448049796402 18, dn 8769699435406089 18, dp 1631297793105507 17, dn 26700942210476494 19, dn 70660197012309515 19, dp 2844526212277088 18, dp 8776095148315316 19, dn 8960678753202322 19, dp 6916782779357009 19, dn 3408344220237694 20, dn 4140314631396877 19, dp 13198330385110025 20, dp 6540591248689602 20, dn 417972308134507 19, dp 28398533953894325 21, dn 18010584198573539 22, dn 1670112664550726 20, dp 507113172365297 20, dp 1911315934468383 21, dn 12300062683120657 22, dp 11725952763546076 22, dn 16787605129833354 23, dn 4907558530205412 22, dp 1537031382786647 22, dp 13420799430074416 24, dn 2107829120962691 23, dp 3951419129309805 23, dn 808664320541428 23, dn 9791578160381062 24, dp 33521709571168373 25, dn 10786563617676056 25, dn 546360335026688 25, dp 9542688658998257 25, dn 2325010779891397 25, dn 10271883665870772 26, dp 4594039526300061 26, dn 4777117154528941 26, dp 758023990146662 26, dp 1516914355225083 26, dn 4224778034699424 27, dp 5509698246251695 28]]

/-- src/faddeeva.rs:527-3552, rows 32-39: `dp m e`, `dn m e` stand for the literals `±m·10^-e` -/
def taylorRows_4 : List (List (Int × Nat)) :=
  [[dp 26428571428571437 16, dp 0 0, dp 9259467063139601 19, dp 23452338996911212 17, dn 4894289733373791 18, dn 11124446559836618 17, dp 12008961874745348 18, dp 5947984054085572 17, dn 1789578729039738 17, dn 30634837220692185 18, dp 17643523696366726 18, dp 10741828914058253 18, dn 11493410134285878 18, dp 8982871791295743 19, dp 4243972457605797 18, dn 43719578672526144 19, dp 7919920303240304 20, dp 30446208281741374 19, dn 11133211592621443 19, dn 9186350089447593 19, dp 6362554611150113 19, dn 13706660735685427 20, dn 11364222616550576 20, dp 2561764942490034 19, dn 6107550762969407 20, dn 9817659460022298 20, dp 4584267795971145 20, dp 548370008597663 21, dn 9243098655973706 21, dp 14881127847088004 21, dn 30592126649482962 22, dn 569672357614922 20, dp 231042142654018 20, dp 2326649960275396 23, dn 38086263814920117 23, dp 7044041926855998 22, dn 15339480974825268 23, dn 22175366490593074 23, dp 8736257852995371 23, dn 13148992826023476 24, dn 8157053151374066 24, dp 27000481528164656 24, dn 6580465234417939 24, dn 5820942264126885 24, dp 24331697809027262 25, dn 11063393035483698 25, dp 13631372652274356 27, dp 7949853631757539 25],
   [dp 16428571428571432 16, dp 1571428571428572 15, dp 18417555556090726 17, dp 16063600197232375 17, dn 10029224778710627 17, dp 2173770028073995 17, dp 14749523387644452 18, dn 38745834482372336 18, dp 10116384404355886 18, dp 12492232125525072 18, dn 5869323641630573 18, dp 11628531060823698 19, dp 5413665837237986 19, dn 20717643166106533 19, dp 5747686807558634 19, dp 4633469274992449 19, dn 21643223315376834 20, dp 1163838800701533 19, dn 9078121544679296 21, dn 7861030530750089 20, dp 23959068935164454 21, dp 6006053572592369 21, dn 4169024361232003 21, dp 6218650365168139 21, dn 13341441136398327 22, dn 17583788632215104 22, dp 5996109604772733 22, dn 2055621518831294 22, dp 4006573170895836 24, dp 17751420272431985 23, dn 4674889969058563 23, dn 13194909653625043 24, dp 6941377677249305 24, dn 10983239265849691 24, dp 22607289753818886 25, dp 254136544076615 23, dn 7837480186421714 25, dp 38300762290649275 26, dn 4125264700502896 26, dn 21544313561466394 26, dp 5399649743295832 26, dp 3764237838774514 27, dn 4154065360247121 27, dp 12440739177059984 27, dn 26306884277579113 28, dn 1683312196529158 27, dp 530064159469157 27, dn 5037598866752927 28],
   [dp 2785714285714285 15, dp 5714285714285707 16, dp 4983191645167962 17, dp 20537555974904048 17, dn 42920037660454706 18, dn 7280685602248936 17, dp 2812712787530745 17, dp 21969274976725357 18, dn 15253488575086752 18, dn 29772744180903326 19, dp 63317167439055815 19, dn 24795799559977918 19, dn 15207072174024403 19, dp 2506620748169541 18, dn 22103540358634944 20, dn 12113912394148448 19, dp 41263575241189885 20, dp 2840785937040032 19, dn 19152982043255603 20, dp 4605939603672352 20, dp 3271805764122043 20, dn 673202887909177 19, dp 12383584681726384 21, dp 24555932245741396 21, dn 9669677293486805 21, dn 14839739216217828 22, dp 22842313991528773 22, dn 2482745835109948 21, dp 2904229764942145 22, dp 10915260580084607 22, dn 35279109395252007 23, dn 10341284064024894 23, dp 8443455493435512 23, dn 8024700262408176 23, dp 8965639749131954 24, dp 3483871814131994 23, dn 10529697261903855 24, dn 25796394014066237 25, dp 2099223186628174 24, dn 24039566605427786 25, dp 34822860228430824 26, dp 8501915480288399 25, dn 25834648369751246 26, dn 16342185312859363 27, dp 34486904419862544 27, dn 6257526922191936 26, dp 1150168406243624 26, dp 15541109471921984 27],
   [dp 12142857142857155 16, dp 2285714285714285 15, dp 1890069139629412 16, dp 8842398901893422 17, dn 547928412520156 16, dp 49603587076083984 18, dn 9093121983015975 18, dn 234161361781435 16, dp 8207928263757061 18, dn 2569524085821301 19, dn 7304839212955254 19, dp 24835854642742605 19, dn 6576581192513888 19, dn 4356609626015954 19, dp 1777574314799983 19, dn 1504500076087638 19, dp 27978307977123044 21, dp 6058501629410977 20, dn 1831276348070636 20, dp 323301739740873 20, dp 36630514618040004 23, dn 5034017341125108 21, dp 12723278046974121 22, dp 40848980796617005 23, dn 17774247885018427 23, dp 2963302115585641 22, dn 6319524232662601 23, dn 603418045811438 22, dp 1793160524020464 23, dn 1209411570866395 23, dp 19682081715514154 25, dp 4862998607109718 24, dn 12274862557307438 25, dp 22537125819794983 26, dp 4680644714618208 27, dn 29137260451354834 26, dp 6538918719032233 26, dp 13851731353707954 27, dn 5824522261281597 27, dp 13899071746716885 27, dn 2794446964870565 27, dn 18332612502638166 28, dp 5027467860878564 28, dn 5285661451692386 28, dp 9293500339645381 29, dp 12628152936570813 29, dn 2972299430692888 29, dp 14800129379647918 30],
   [dp 264285714285714 14, dp 1428571428571427 15, dp 10037869089488403 17, dp 1643194370184848 16, dn 61088974677287536 18, dn 26962688273288887 18, dp 22552616076105918 18, dn 57909399000964385 19, dn 4524759396943869 18, dp 6699528124166407 18, dn 5117844605439957 19, dn 2725506930497477 18, dp 7935005139255002 19, dp 4938871971701932 19, dn 29325696724342103 20, dp 9555382031327535 20, dp 3372606121051164 20, dn 9356679116541783 20, dp 1761424023768948 20, dp 25887438652220878 21, dn 9621317026940571 21, dn 2935850319224568 24, dp 1561866423753765 21, dn 2426988201863854 21, dp 3684365800130095 22, dp 7610693103682646 22, dn 2413916331627235 22, dn 18457872116571302 24, dp 37409020489090126 24, dn 5652963091855057 23, dp 8824045793987606 24, dp 16345164733026178 24, dn 4983930348231235 24, dp 9678877959988646 26, dp 5607549764350601 25, dn 11851328941333722 25, dp 21281036020565265 26, dp 26285524907424473 26, dn 8307498425567533 26, dp 207143579206914 25, dp 3824936338305825 27, dn 2093913567662784 26, dp 4305317296639879 27, dp 29160591598530943 28, dn 10511882007815993 28, dp 6744718682001897 28, dn 51240528311918137 30, dn 29062677497219706 29],
   [dp 32142857142857113 16, dp 0 0, dp 3258584217407665 20, dp 1857588167288948 16, dn 20948041397620686 20, dn 6578465473309572 17, dp 6407440598923019 19, dp 25691859198912696 18, dn 12333693761660317 19, dn 11197547508939528 18, dp 16618287531778267 19, dp 5150128897053591 18, dn 16432892179050768 19, dn 2142575292635942 18, dp 1206724101458067 18, dp 5789067526158817 19, dn 6387048064273855 19, dp 8051531079976598 20, dp 21156390837177467 20, dn 2094264914752109 19, dn 9182675980102465 21, dp 13169805976488504 20, dn 36409632830003355 21, dn 4277774012524099 20, dp 22947934299630963 21, dp 10548762198370383 22, dn 6225264093611254 21, dp 65645110935798465 22, dn 4520241316739264 22, dn 34084754537232017 22, dp 10968855432233084 22, dp 6273289806880213 22, dn 40982392001537013 23, dp 18560811639203708 23, dp 2755070353183322 23, dn 1529908122078032 22, dp 37796245556997377 24, dp 3601741949464386 23, dn 16559848408813853 24, dp 41356150289704205 25, dp 16244040646515745 25, dn 5190575558110396 24, dp 11338549629576655 25, dp 1254837783638441 24, dn 5018036070627003 25, dp 11020651394432488 26, dp 43553200236455685 27, dn 1462793642755376 25],
   [dp 0 0, dp 27142857142857166 16, dp 19594605878015253 17, dp 0 0, dp 0 0, dp 646719908603979 16, dn 2040779787335806 17, dp 0 0, dp 0 0, dn 6186264421807796 18, dp 18082543642255863 19, dp 0 0, dp 0 0, dp 5112581732781941 19, dn 14018453606159085 20, dp 0 0, dp 0 0, dn 3735922562355634 20, dp 9695230913698749 21, dp 0 0, dp 0 0, dp 2454133079511683 21, dn 6068025110048348 22, dp 0 0, dp 0 0, dn 1467450349997379 22, dp 3474909314378146 23, dp 0 0, dp 0 0, dp 8065548906952017 24, dn 18366984239669753 25, dp 0 0, dp 0 0, dn 4106966151103155 25, dp 902438085834433 25, dp 0 0, dp 0 0, dp 1949989819641654 26, dn 4146168164320453 27, dp 0 0, dp 0 0, dn 868001387260558 27, dp 17901643988989369 29, dp 0 0, dp 0 0, dp 36390440175726844 30, dn 7294762544031755 30, dp 0 0],
   [dp 2071428571428571 15, dp 20000000000000004 16, dp 14321248331640216 17, dp 1319228619005921 16, dn 6561741185129748 17, dp 8991663098879464 18, dp 10692624573330102 18, dn 1931362604567601 17, dp 32274344767934927 19, dp 641992304224042 17, dn 2269089238246461 18, dn 21982746199020832 20, dp 41326675138036057 20, dn 5705550720785407 19, dp 9064217921954413 20, dp 19171934570215465 20, dn 6216767422513257 20, dn 22463476410234847 22, dp 841025552690302 20, dn 15682712141728064 21, dp 2973556966718772 21, dp 3980323243351713 21, dn 13218239799662664 22, dp 2981285836981081 22, dp 655934834870902 22, dn 35531406357290454 23, dp 7922060617096175 23, dp 51115358740502275 24, dn 1960962970377021 23, dp 13998621030320535 24, dn 15147738381138095 25, dn 5841891842252667 24, dp 14751455769048448 25, dp 15093177588596657 26, dn 15487766314142944 26, dp 3223695369420414 25, dn 5995158664864886 26, dn 5987551988035887 26, dp 1770133920746651 26, dn 8715389003936539 27, dp 6161840898821966 28, dp 4476436553609936 27, dn 10024847429288327 28, dn 17895977511627199 29, dp 10499732369612093 29, dn 2000728263276183 28, dp 3498587582235609 29, dp 3485469968595683 29]]

/-- src/faddeeva.rs:527-3552, rows 40-47: `dp m e`, `dn m e` stand for the literals `±m·10^-e` -/
def taylorRows_5 : List (List (Int × Nat)) :=
  [[dp 335714285714286 14, dp 7142857142857137 16, dp 393365144255794 16, dp 16683409629538476 17, dn 25782173578341006 18, dn 47987642924327965 18, dp 12941037641474092 18, dp 12683114649388528 18, dn 5735580598029695 18, dn 25566554283528867 19, dp 22439716729724902 19, dn 16069278055967023 22, dn 7195602724384962 19, dp 38368528211653075 20, dp 14858529057523313 20, dn 2575025844241345 19, dp 10516516589013085 21, dp 10704437984797083 20, dn 26857616951020925 21, dn 27343122085837156 21, dp 13359453072911586 21, dp 8743109471899187 22, dn 34734935377236135 22, dp 29730937707811173 22, dp 7730897350725859 23, dn 15226081183134465 22, dp 35439650702565454 23, dp 34721641708004544 23, dn 156777992181395 21, dp 1597117564142374 23, dp 26191084597761682 24, dn 412642364536082 22, dp 525017666579665 23, dp 13846779127257504 24, dn 42407651463261726 25, dn 11214381722192403 25, dp 9630177044872672 25, dn 8297450607062104 25, dp 46122455004783566 27, dp 3576823430110208 25, dn 907757881047847 25, dn 4252529189232241 26, dp 2282496251381922 26, dn 1500790144405207 26, dp 32659034610177583 29, dp 7295753940304554 27, dn 17009200133584873 28, dn 8834786911597607 28],
   [dp 1071428571428573 15, dp 28571428571428603 16, dp 16828647068643013 17, dp 57502161136164985 18, dn 3203008783569337 17, dp 43523275024128484 18, dn 9616305079248523 18, dn 12619704845750134 18, dp 4184648193258537 18, dn 16846702134097678 19, dp 1597049883646572 19, dp 12342854754038132 19, dn 33169230042676557 20, dn 3763139079733627 20, dp 293871199381628 19, dn 8209128039577864 20, dp 18759881450431147 21, dp 11892324072915832 21, dn 3877231035252018 21, dp 3937460829105651 21, dn 7457371684607852 22, dn 11184953658305656 22, dp 29610681981739095 23, dn 12167906259413099 23, dp 14695526719803613 24, dp 7324478269927579 23, dn 17096869884160627 24, dp 20254841710178964 26, dp 6463473721893494 25, dn 378670756791167 23, dp 7978843375402199 25, dp 28684735501710284 26, dn 9088794355304839 26, dp 1599602107037905 25, dn 3043440307246182 26, dn 2481918204173537 26, dp 6186386337480583 27, dn 5460328540576153 27, dp 9116881454699222 28, dp 1443793834870746 27, dn 31979682339809855 29, dp 1377456107233683 28, dn 17548980404804913 30, dn 6776732080797868 29, dp 13807465315144921 30, dn 14283640939814787 31, dn 12052479103353603 32, dp 2713437273478093 30],
   [dp 32142857142857135 16, dp 17142857142857155 16, dp 7903678771428974 17, dp 1366173149767163 16, dn 3969141252883478 17, dn 20858272775228486 18, dp 12785713513716018 18, dn 15304452926222342 19, dn 26860961779270214 19, dp 25727967948578415 19, dp 12933792468856846 20, dn 10672611929158215 19, dp 17631060714322821 20, dp 2543853817336151 19, dn 8665378822567762 20, dn 175509535387775 19, dp 20609165004482387 21, dn 14120643216517535 21, dn 9491933435471707 22, dp 6902184538903503 21, dn 12724155661816913 22, dn 14306136345123808 22, dp 5173240008505617 22, dn 24499948617590265 24, dn 7862027115004884 23, dp 11318587727988834 23, dn 11763842326646961 24, dn 340890320160421 22, dp 8922197059503143 24, dp 25465535675053267 25, dn 17927325457597552 25, dp 15154980434568787 25, dn 7491277362752314 26, dn 5792721981180947 25, dp 130060693741436 24, dp 5935877566052241 26, dn 28397830014510552 27, dp 19472346379288666 27, dn 6000876874936595 28, dn 814071846005595 26, dp 17232806248046578 28, dp 8129442548295051 28, dn 35454098839564433 29, dp 25734879984388407 29, dn 13572878049033978 30, dn 9831926421151279 29, dp 20874616939410654 30, dp 7449563408315025 30],
   [dp 4071428571428575 15, dp 0 0, dp 6322724023708452 23, dp 14320522971632055 17, dn 5148503847876886 22, dn 3772056059452712 17, dp 20329493263985066 22, dp 10371338418540009 18, dn 5174771724651778 21, dn 30037353111143452 19, dp 9517882061984731 21, dp 9290776740699179 19, dn 1343064209680015 20, dn 31157523046812936 20, dp 15054672634519593 21, dp 11315954046915567 20, dn 13675252057396233 21, dn 4261307306506259 20, dp 10155784828362708 21, dp 15084135681078397 21, dn 6149622324017897 21, dn 4177979538263383 21, dp 29763926410277504 22, dp 3852419163702205 22, dn 10851904935367706 22, dp 4744535623712308 22, dp 240313823300089 21, dn 3861576176707531 22, dp 1642614265285391 23, dp 16888609158281005 23, dn 4388452711646857 23, dn 430642915594861 22, dp 21632876652369102 24, dp 8596127307749394 25, dn 5524023121022141 24, dp 4945554965880659 24, dp 10091634256382262 26, dn 2470010178874344 24, dp 5681277156204133 25, dp 56787944978975 23, dn 25410607959591806 26, dp 16624164407707074 27, dp 46644703702011107 27, dn 6355635477354145 26, dp 611385716549808 26, dp 2306104707744195 26, dn 6503348767932119 27, dn 27577319258741034 28],
   [dp 2285714285714284 15, dp 27142857142857117 16, dp 12410484154273894 17, dp 9683576909893193 17, dn 4165652908689041 17, dp 1198936855409903 17, dp 36526538741363935 19, dn 11172318272455838 18, dp 19884947090847505 19, dp 2422008464000822 18, dn 811880832021083 18, dp 11947807218339457 20, dp 7661221258448902 20, dn 19656986254511444 20, dp 3440681116374221 20, dp 4062567887298936 20, dn 12853329311204127 21, dp 2948929132117167 21, dp 7441158694034462 22, dn 3119620046854356 21, dp 59665620246797 20, dp 4804195335296512 22, dn 1607811196642363 22, dp 8040456984613308 23, dn 19846409239346557 25, dn 4141736567857662 23, dp 8816479631896511 24, dp 3275096178310768 24, dn 1427348577030702 24, dp 15386133602424293 25, dn 19681890502404568 26, dn 41681355200961056 26, dp 9944923869365806 26, dn 6889857030216713 27, dn 6149335134005809 27, dp 20328518595914995 27, dn 35548479897332604 28, dn 26922677441514693 28, dp 7741242322999192 28, dn 502876737461105 27, dp 4426000300109987 29, dp 18321115180059407 29, dn 37800254141510683 30, dn 3602590337180926 30, dp 30821065149664467 31, dn 68929495036811076 31, dp 10950913530022178 31, dp 999289618633788 30],
   [dp 4142857142857141 15, dp 10714285714285727 16, dp 3581702260574623 17, dp 13033070898869087 17, dn 1748952518613066 17, dn 2825461296595318 17, dp 6366782130416584 18, dp 546289314111226 17, dn 2022695897221356 18, dn 7992834579721534 19, dp 5782914408365745 19, dp 7799108754771794 21, dn 1458906964600212 19, dp 5894995689385015 20, dp 29757847056593704 21, dn 3190296608356646 20, dn 3306732042768052 21, dp 11810304703756027 21, dn 8511576742040064 22, dn 3370627982257106 21, dp 7159043487099749 22, dp 6812622576410757 22, dn 2769615845958041 22, dn 4375692031760748 23, dp 699319119461411 22, dn 3695255142359431 23, dn 8724725951057621 24, dp 2031983556931971 23, dn 18485178960971171 25, dn 5827954437630304 24, dp 14483763747345385 25, dp 8293002842197787 25, dn 4351149992947319 25, dp 11206000020056205 26, dp 5928839924838688 26, dn 10341927679721885 26, dp 925708976270189 26, dp 2974917699752115 26, dn 730723127580403 26, dn 330506934234675 26, dp 18394294525083138 28, dn 866060052421986 27, dn 12411836550396808 29, dp 492221514612178 27, dn 7598520011362974 29, dn 9906280021114952 29, dp 30252316366745654 30, dn 36888250775165356 33],
   [dp 10714285714285718 16, dp 34285714285714297 16, dp 14626020156729527 17, dp 42653083189622173 18, dn 2093643291536642 17, dp 34052606656297106 18, dn 7076514907812558 18, dn 7355963182969907 18, dp 2198645316655364 18, dn 12725871366003785 19, dp 17883380009739794 20, dp 590618443254531 18, dn 1461101759548164 19, dp 10654881683206533 21, dp 4747946636966424 21, dn 33695071070960486 21, dp 7284894947078154 21, dp 26195159984719925 22, dn 8929983785186893 22, dp 14779160277967036 22, dn 28021562296939713 23, dn 2536197178835136 22, dp 6473521693419931 23, dn 49088267405286814 24, dp 773706015720522 23, dp 1532090452736266 23, dn 34160181205173906 25, dp 10243248597348187 25, dn 8693381456967997 26, dn 7240512801567554 25, dp 14667142304351427 26, dp 70718802592705234 28, dn 6129025611735332 27, dp 28480108687779333 27, dn 5307315369819296 27, dn 20715600409212628 28, dp 5544639256080964 28, dn 948714145073659 27, dp 1622791851572464 28, dp 13189114539534868 29, dn 29066975615754194 30, dp 2642278167333207 29, dn 4054360268894262 30, dn 6054306650561866 30, dp 12050771661700882 31, dn 5747962636822879 31, dp 7204328321570464 32, dp 2307696953697155 31],
   [dp 32142857142857166 16, dp 2428571428571429 15, dp 8834636622048801 17, dp 10978179311908559 17, dn 3471507341043614 17, dn 6471853169551422 18, dp 75204406155747845 19, dn 4671372505896795 18, dn 5350221502500292 19, dp 21487012480730064 19, dn 29122605079690814 20, dn 4679138561510438 19, dp 1338974651493084 19, dp 2502833659627934 20, dn 26125185149730266 21, dp 2076202438584657 20, dp 14240099523119385 23, dn 8090439073881185 21, dp 15048146214082082 22, dp 12242818408025178 22, dn 4457887191955639 22, dp 11126614397371681 23, dp 3965909370274065 23, dn 9985865424861908 23, dp 1378167022937032 23, dp 2061693817743694 23, dn 5647935406275928 24, dp 2002563925491996 26, dp 6801602396252721 25, dn 10715218070022743 25, dp 12277697414947344 26, dp 2531905532476964 25, dn 6132122267674705 26, dn 53970163733009834 28, dp 765248951489962 26, dn 10865003907676834 27, dp 12161761045627153 28, dp 2557132450126761 27, dn 5946053540445003 28, dn 34213437328261683 30, dp 6441743307491443 29, dn 10559148559766814 29, dp 13111285413793819 30, dp 21717230356740305 30, dn 5125619554696285 30, dp 3756580152724471 31, dp 3887484200485892 31, dn 9524335767659134 31]]

/-- src/faddeeva.rs:527-3552, rows 48-55: `dp m e`, `dn m e` stand for the literals `±m·10^-e` -/
def taylorRows_6 : List (List (Int × Nat)) :=
  [[dp 0 0, dp 4214285714285708 15, dp 1303871395024866 16, dp 0 0, dp 0 0, dp 29401848431698584 18, dn 6479349683185598 18, dp 0 0, dp 0 0, dn 13973450826585915 19, dp 295269131705057 18, dp 0 0, dp 0 0, dp 6119863961776982 20, dn 124535263433901 19, dp 0 0, dp 0 0, dn 2490263273240051 21, dp 4897113515410468 22, dp 0 0, dp 0 0, dp 9477327118157132 23, dn 18061941740885075 24, dp 0 0, dp 0 0, dn 3391834205581567 24, dp 6279638838461771 25, dp 0 0, dp 0 0, dp 11467922781557739 26, dn 20667550333953305 27, dp 0 0, dp 0 0, dn 3677368759188955 27, dp 6462584632428414 28, dp 0 0, dp 0 0, dp 11221775880098971 29, dn 19260085048741243 30, dp 0 0, dp 0 0, dn 3268448160437025 30, dp 5485910658328085 31, dp 0 0, dp 0 0, dp 910979684488619 31, dn 1497074534530178 32, dp 0 0],
   [dp 24285714285714266 16, dp 3642857142857145 15, dp 10763067409081274 17, dp 6825806025127698 17, dn 25468835181786026 18, dp 12673677499102778 18, dp 3906079545419879 19, dn 6257663158305979 18, dp 1149628619855795 18, dp 7337169863487059 19, dn 25486850481788584 20, dp 14392310956364782 20, dn 25483693264849695 22, dn 6191799395239195 20, dp 11832998404259515 21, dp 5244168955737823 21, dn 2024329763906214 21, dp 17360663718605277 22, dn 14813179860598246 23, dn 5214965011494721 22, dp 10763136966138574 23, dp 1556624701491682 23, dn 1131061128917999 23, dp 18321410926496613 24, dn 24400835607266656 25, dn 34287565449550645 25, dp 7910097061966431 25, dn 18425915292167198 26, dn 23410735818876945 27, dp 15303195398548269 26, dn 2524021648624047 26, dn 14586844569798717 27, dp 42094151327306435 28, dn 3421367615479397 27, dp 31922471343817404 29, dp 9451977779840936 28, dn 18134760872216907 29, dn 43532623537351574 31, dp 11703621653800108 30, dn 30444681959680054 30, dp 44230421499058634 31, dp 37532342499068226 31, dn 8772799250339477 31, dp 521717380667784 30, dn 3732983832293122 32, dn 1737577841133932 31, dp 30451210803064085 33, dp 32957343180252057 34],
   [dp 4714285714285708 15, dp 0 0, dp 2228572250517682 25, dp 12257529703447484 17, dn 2101225264773812 24, dn 27330776372391567 18, dp 9682919023167619 24, dp 6269791578228097 18, dn 29031214372487075 24, dn 1484541664265329 18, dp 6358926008070706 23, dp 36438099093993675 20, dn 10829869040319549 23, dn 9330177435203398 20, dp 14898723632097603 23, dp 25156743668455244 21, dn 16973420268448306 23, dn 7226943697746293 21, dp 16279707265503932 23, dp 2228283440944308 21, dn 13283060250237807 23, dn 728404687839302 21, dp 9268086782837702 23, dp 2411248746310509 22, dn 5528972521609847 23, dn 7424124799868976 23, dp 2799511565077638 23, dp 18144930036652438 24, dn 1179803824094352 23, dn 17383286861253056 25, dp 3946315355014305 24, dn 1421421706416981 24, dn 907469314835567 24, dp 1125242230754999 24, dp 4146928400845601 26, dn 4854114583927867 25, dp 8376132490033483 26, dp 13683836154078902 26, dn 4848267793286092 26, dn 17742630509468647 27, dp 15242091691459615 27, dn 5599424420647495 27, dn 23372897184020034 28, dp 4413991706394966 27, dn 4022323963666843 28, dn 1448513678455799 27, dp 38486619621967 26, dp 21951960317242264 29],
   [dp 4500000000000001 15, dp 2142857142857143 15, dp 5098935729880773 17, dp 10263845807779322 17, dn 19025109641584433 18, dn 13892772599516833 18, dp 4853409089357596 18, dp 6471107091420396 19, dn 9523769701469232 19, dp 38707471602663203 20, dp 1308665481803137 19, dn 17406956904495295 20, dn 38114864186122802 22, dp 4632401085856507 20, dn 4816373914163484 21, dn 8740336307187867 21, dp 19302505558619486 22, dp 9509439338332501 22, dn 4580041465360089 22, dp 8120935345137354 23, dp 6773069925781738 23, dn 7443301500034553 23, dn 12566635964105233 25, dp 21720400270971693 24, dn 2823999674109475 24, dn 3748351937325503 24, dp 9887465678437998 25, dp 19976855334746798 26, dn 18419760149673307 26, dp 11240781567420407 26, dp 11573789945990929 27, dn 4441351111670834 26, dp 492583162719604 26, dp 8353600786038487 27, dn 1979932394429187 27, dn 4666307384141895 28, dp 3510518984526772 28, dn 2365941399291534 28, dn 11865399034798792 30, dp 8656114444250002 29, dn 11807309066692905 30, dn 13421595261845047 30, dp 3623772855953463 30, dn 8625891927125023 32, dn 4461437453707827 31, dp 5756697952470446 31, dn 34777079010245666 33, dn 14074844071196645 32],
   [dp 5214285714285715 15, dp 10714285714285712 16, dp 2249440085106035 17, dp 10540567811886482 17, dn 8715155763490544 18, dn 1905376368206439 17, dp 25341645420713667 19, dp 32837565413536608 19, dn 6535944172398712 19, dn 5225716238564924 19, dp 15698266113086024 20, dp 7068047218467018 20, dn 356915810978443 19, dn 5668904355798108 21, dp 7683204737467135 21, dn 96006847962991 20, dn 154271097264754 20, dp 697991610860203 21, dp 2771948007434567 22, dn 2566386480046963 22, dn 3947375487741632 23, dp 7626693239917687 23, dp 206944116615215 23, dn 19749123855898848 24, dp 13678766924186856 25, dp 4453342472725427 24, dn 7384171164501521 25, dn 8229097251506264 25, dp 24626955966747393 26, dp 967238688416708 25, dn 6315285911018784 26, dp 7814799302598896 27, dp 1218673208798154 26, dn 930782501162184 26, dn 12956141969138428 28, dp 34577058418954183 28, dn 2030993716689055 28, dn 8627627171592621 28, dp 15891596929551568 29, dp 13984354873907833 29, dn 50073844542269137 30, dn 3861959076359294 30, dp 9804554966450278 30, dn 66055642974202245 31, dn 7740282545605837 31, dp 26476550767615814 31, dn 2665251999737503 31, dn 5791590689695038 31],
   [dp 15714285714285716 16, dp 48571428571428505 16, dp 1039039870455553 16, dp 32421651640643166 18, dn 11602200491212075 18, dp 171295306395268 16, dn 2471380310234836 18, dn 2985940259726711 18, dp 6551064781294944 19, dn 28899438778185404 20, dp 1912012340259929 20, dp 129064273377471 18, dn 23307509114345387 21, dn 267602790671875 20, dp 15027041719603272 22, dn 3883728418126129 21, dp 5949408854108519 22, dp 4229088203986784 22, dn 958706803459506 22, dp 8236113566173236 23, dn 9832701637193986 24, dn 19261304866904414 24, dp 35534318558868264 25, dn 8669068694737965 25, dp 6917596973863983 27, dp 6116474423997586 25, dn 9890722657925057 26, dn 2130885898076538 26, dp 6924288092498606 27, dn 15039317457480804 27, dp 21397270098555643 28, dp 16156879541366173 28, dn 32521187267155297 29, dp 28098926422426195 29, dn 3298434796387453 29, dn 5970524847482889 29, dp 10240882153938006 30, dn 31714165642854305 31, dp 16527887092220902 32, dp 16608306078896863 31, dn 2561804810445275 31, dn 25394020272836667 33, dp 1139480722511277 32, dn 3766205252446684 32, dp 5270893904810625 33, dp 27839084901382083 34, dn 5596181151169783 34, dp 6987140456647607 34],
   [dp 39285714285714257 16, dp 3714285714285713 15, dp 7299593533208008 17, dp 7460939686724243 17, dn 19298258023970977 18, dn 9304218541507833 20, dp 2473064501978404 18, dn 2564629906933874 18, dp 37919503153340655 21, dp 6551372082998619 19, dn 9433360248352065 20, dn 7498364012113784 20, dp 21666451604219904 21, dn 4070668011211888 21, dn 19680747629957804 22, dp 35000528307892576 22, dn 26700945496468337 23, dn 677013588993103 21, dp 12560464423852064 23, dp 3784820395954578 23, dn 1907962631296322 23, dp 13731706789291337 24, dp 709025845262385 25, dn 4185402293865382 24, dp 5918728175524958 25, dp 44501684048250305 26, dn 1238662552817194 25, dp 39789516367237254 27, dp 6543730174241309 27, dn 2173202079454596 26, dp 2491401357596027 27, dp 30401423010016064 28, dn 671922832905488 27, dp 7131041879582715 29, dp 5164534447178968 29, dn 1030721244348894 28, dp 10140128101799616 30, dp 16681202254153537 30, dn 3280312309428971 30, dn 13833676060095442 33, dp 28372956720506523 32, dn 467667212665698 30, dp 4286107912221947 32, dp 7972450476279517 32, dn 14856456087943096 33, dn 4509040747576181 34, dp 12571621119376692 34, dn 2070179389574172 33],
   [dp 578571428571429 14, dp 0 0, dp 28987702606075735 31, dp 9904152964008271 17, dn 33542913015601947 30, dn 17672818739731092 18, dp 1911709407582324 28, dp 3208350211218687 18, dn 7150116866284956 28, dn 5931859405942172 19, dp 1972841194510462 27, dp 11182707968107164 20, dn 4279713518358532 27, dn 2152543673850767 20, dp 7596119482473687 27, dp 4237649054383803 21, dn 11334075282109177 27, dn 8549685523669575 22, dp 1449490044814665 26, dp 1772386782205423 22, dn 16117617180164302 27, dn 37885288932167154 24, dp 15751405504560803 27, dp 839095583454214 23, dn 1363918448502761 26, dn 19386152928256324 25, dp 10526836502659356 27, dp 4708863932772187 25, dn 7271705207967274 27, dn 12089212918566913 26, dp 4506453171511415 27, dp 32651560797532095 27, dn 2506846037913172 27, dn 9069396342864132 27, dp 12496802202661363 28, dp 24776718982727315 28, dn 5556996076535521 28, dn 619494747562971 27, dp 2183821042556496 28, dp 12294974584747972 29, dn 7450493186133761 29, dn 9669195095971965 30, dp 21268214437066113 30, dn 6700654564935617 30, dn 4623512403698163 30, dp 4613073136757775 30, dp 4983733933806878 31, dn 181720623485897 29]]

/-- src/faddeeva.rs:527-3552, rows 56-62: `dp m e`, `dn m e` stand for the literals `±m·10^-e` -/
def taylorRows_7 : List (List (Int × Nat)) :=
  [[dp 557142857142857 14, dp 2714285714285717 15, dp 4106505249971188 17, dp 8205558748602079 17, dn 12137395786961824 18, dn 8879092747155072 18, dp 2457186571083048 18, dp 3580035270252989 19, dn 3872798809548003 19, dp 14333017385913203 20, dp 4477733306995597 20, dn 5268455225300193 20, dn 20779037629553074 22, dp 11463828144227786 21, dn 6947785711479344 22, dn 18484409694152012 22, dp 26617600802317264 23, dp 20584463875139142 23, dn 57370220663991 21, dn 5221367065647871 24, dp 8730176999559698 24, dn 4674443272496604 24, dn 7914223003521918 25, dp 15136998312933762 25, dn 3858370100281118 26, dn 29288744951360454 26, dp 35234735733725873 27, dp 3713814359596083 26, dn 8757012269722507 27, dn 1486493023912798 27, dp 1359937978137825 27, dn 7267457982530376 28, dn 10565077002143508 29, dp 2458993469455113 28, dn 12983896860073018 30, dn 44562309155292977 30, dp 67099746847449695 31, dp 4425691912256039 30, dn 13764061643123461 31, dp 18801048410969524 32, dp 15461980170001374 32, dn 1828651901373802 31, dp 186046101822372 32, dp 41112754204138516 33, dn 5085091996356309 33, dn 4880133909469264 33, dp 12022443694858942 34, dn 11004013362316253 36],
   [dp 32857142857142883 16, dp 5285714285714281 15, dp 7706292326481867 17, dp 4671118937621672 17, dn 12609493763089648 18, dp 6754733823720081 18, dp 7186359642488429 20, dn 22551334778232023 19, dp 30225285184731304 20, dp 18342668154022965 20, dn 47719539319564595 21, dp 2741179649903976 20, dn 2276621780991201 22, dn 8504864882036228 21, dp 11710954618043694 22, dp 5787055896772631 22, dn 16038585945910036 23, dp 11809361326183306 23, dn 4976063370837671 24, dn 29743408313439154 24, dp 4337916385578452 24, dp 1319283907849628 24, dn 4607465337715596 25, dp 4959263442037147 25, dn 3685635550041195 26, dn 933421174567572 25, dp 14744370643104274 27, dp 9302248951108467 28, dn 1026543190536562 27, dp 1900174413514138 27, dn 1896662820278759 28, dn 24966301483159934 29, dp 4401133850719843 29, dn 1031084035125285 29, dn 11803197226212212 31, dp 63637661988155454 31, dn 7642464970407716 31, dn 5129228634790347 31, dp 10891684986606413 32, dn 7098439906638866 32, dp 32814310813465566 34, dp 1794252297497465 32, dn 24859644837051182 34, dn 5314312138502733 34, dp 1978804169160786 34, dn 2910756055670334 34, dp 27022134946568718 36, dp 4017119479349071 35],
   [dp 0 0, dp 60714285714285685 16, dp 9171300903754816 17, dp 0 0, dp 0 0, dp 14721200210999777 18, dn 2334293470763843 18, dp 0 0, dp 0 0, dn 3658027590033477 19, dp 5667407412175941 20, dp 0 0, dp 0 0, dp 8684066448494861 21, dn 13164616567278324 22, dp 0 0, dp 0 0, dn 19750386647066022 23, dp 2933275971756325 23, dp 0 0, dp 0 0, dp 4313802453910605 24, dn 6283632494783458 25, dp 0 0, dp 0 0, dn 9067997596219622 26, dp 12967708760835315 27, dp 0 0, dp 0 0, dp 18380705362609428 28, dn 2582849700970852 28, dp 0 0, dp 0 0, dn 35988238565723497 30, dp 4973118779220511 30, dp 0 0, dp 0 0, dp 6816827200536617 31, dn 9270342622639624 32, dp 0 0, dp 0 0, dn 12509525199305173 33, dp 16752737516329164 34, dp 0 0, dp 0 0, dp 2226876455882625 34, dn 29385601609470934 36, dp 0 0],
   [dp 6571428571428571 15, dp 13571428571428577 16, dp 17569560917718635 18, dp 8312422296175916 17, dn 5291338308098549 18, dn 11799428607129745 18, dp 11885805686814523 19, dp 15959813032272 16, dn 23557291638081414 20, dn 20101477152540824 20, dp 4333213166113617 20, dp 22339505228293765 21, dn 7545276690158493 21, dn 1838233748825667 21, dp 12521231193092218 22, dn 6555028360474082 24, dn 197673445981194 21, dp 5199991481321904 23, dp 29361281096284006 24, dn 16721898073693345 24, dn 3992471119390258 24, dp 4008753564528963 24, dp 46308179088539994 26, dn 8405971948077548 25, dn 34808776510915865 27, dp 16121867522188771 26, dn 25902714782794267 28, dn 28599888564258337 27, dp 20025270816881404 28, dp 46521258559631635 28, dn 6079418322050694 28, dn 6698485040925412 28, dp 1444585508711821 28, dp 7663995433262677 29, dn 29668231222838165 30, dn 3729546498737037 30, dp 5346186359903847 30, dn 13961738616726228 31, dn 8176286616126939 31, dp 6276516303017991 31, dp 9248578049209145 32, dn 17039527333614738 32, dn 2138576686296429 33, dp 3665723209536166 32, dn 27317310335927686 34, dn 6437405231480119 33, dp 10321339564971584 34, dp 8502787116842224 34],
   [dp 62857142857142865 16, dp 0 0, dp 69332424671943505 34, dp 909394362625478 16, dn 8716076244472898 32, dn 14859460205088493 18, dp 5409344071853879 31, dp 24628850265798813 19, dn 22086655789565682 31, dn 4143542603709846 19, dp 6671053187413665 30, dp 708137335902969 19, dn 15889467496771732 30, dn 1230425459292409 20, dp 31068533216479077 30, dp 21757650931705614 22, dn 51256701593782755 30, dn 39199518159330905 23, dp 7277911205753885 29, dp 7205115492541677 23, dn 9026933394842002 29, dn 13532842716354774 24, dp 989256259807917 28, dp 26024855726197915 25, dn 9664525209132195 29, dn 5137523683321409 25, dp 8475980262268153 29, dp 10446917138751571 26, dn 6709702309359856 29, dn 21986306873092436 27, dp 4814184485223604 29, dp 4818638830682801 27, dn 31401181177965644 30, dn 11069706750170712 28, dp 18654626033300644 30, dp 2674328193923487 28, dn 10100760961671747 30, dn 675336021536781 28, dp 4981763493340515 30, dp 17451567603418982 30, dn 22329664206809088 31, dn 44381016462359184 31, dp 9054025436653771 31, dp 10445071315778222 31, dn 3293462173674862 31, dn 20260683354792868 32, dp 10588851634430852 32, dp 2082013967615723 32],
   [dp 5214285714285712 15, dp 442857142857143 14, dp 5412986497290431 17, dp 62378661206815386 18, dn 12000449742779704 18, dn 15771038212858864 19, dp 14595917630380443 19, dn 10103424206574232 19, dn 5643487541055161 20, dp 25427432845883335 20, dn 1962608618266723 20, dn 32795350458453585 21, dp 5413737675951618 21, dp 14582093819660605 22, dn 7149681453626404 22, dp 40556870537684513 23, dp 3154299758192833 23, dn 1161922821949144 22, dp 898203063413402 23, dp 1515015847988139 23, dn 25076250267640222 25, dn 5738971050610909 25, dp 3103796794587087 25, dn 21049969127872014 26, dn 7817494611299562 27, dp 53993465035868706 27, dn 5083852066347545 27, dn 6069554807330458 27, dp 11456453554623732 28, dp 26019984027574613 30, dn 11066268377732601 29, dp 12290098397904398 29, dn 32456957526447783 31, dn 23571097263447968 30, dp 29000476115344507 31, dp 1797405903473762 30, dn 4607106646186103 31, dp 15951074638278168 32, dp 23181573265148358 33, dn 6542782482715776 32, dp 5271949752037085 33, dp 8314460305145657 33, dn 1384984419226808 33, dn 12733528086945283 35, dp 13198488885123584 35, dn 14447574677895942 35, dp 51778485892182736 37, dp 2692441778090746 35],
   [dp 15714285714285712 16, dp 6357142857142851 15, dp 8290028747062145 17, dp 2003798202047293 17, dn 5775132075940314 18, dp 11384711476125912 18, dn 1450842681629155 18, dn 1214903285907403 18, dp 22114264824985784 20, dn 1682423671812014 19, dp 16896021506585208 21, dp 3672437094474086 20, dn 5692586701741442 21, dp 12488875904696788 22, dn 37237643352354218 25, dn 8327738990885018 22, dp 11553591063017915 23, dp 2383703141239767 23, dn 6574313169058107 24, dp 15209354465720388 24, dn 1892623994509785 24, dn 13207994598927752 25, dp 23038514736531244 26, dn 2204262698724807 25, dp 23510709901939613 27, dp 36834964417930374 27, dn 5527569616205303 27, dp 2180302139852838 27, dn 14831336949159913 29, dn 7879390448957814 28, dp 10737034448943821 29, dp 10529504612007944 32, dn 26322775883863352 31, dp 14027328361583866 30, dn 17575222475595767 31, dn 6768093681619866 31, dp 12841463796052625 32, dn 2107000918471279 31, dp 24030803621493103 33, dp 21284368225538095 33, dn 3249427361258098 33, dp 2577471147256154 33, dn 253920833195913 33, dn 4677606088942731 34, dp 6426902854648422 35, dn 21734071506638855 36, dp 13418225495407341 37, dp 8486068552134992 36]]

/-- src/faddeeva.rs:527-3552 `TAYLOR_COEFFS`, as rows of 48 -/
def taylorRows : List (List (Int × Nat)) :=
  taylorRows_0 ++ taylorRows_1 ++ taylorRows_2 ++ taylorRows_3 ++ taylorRows_4 ++ taylorRows_5 ++ taylorRows_6 ++ taylorRows_7

end Verif
