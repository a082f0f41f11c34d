import Verif.Model.Digest

/-! The straight-line parts of cgo/sha1.c, transcribed by script from the source text: each item is one macro call
with the names of its arguments.  `Model/CSha1` gives the macros their meaning. -/

namespace Verif.Model.C

/-- The local variables `a, b, c, d, e` of cgo/sha1.c:366,461,874. -/
inductive Var where
  | a | b | c | d | e
deriving DecidableEq, Repr

/-- A call of a step macro of round `r` with argument names `a … e` and step number `t` (cgo/sha1.c:166-246). -/
structure Step where
  r : Nat
  a : Var
  b : Var
  c : Var
  d : Var
  e : Var
  t : Nat
deriving DecidableEq, Repr

/-- The macro calls of `sha1_compression_states` (cgo/sha1.c:459-869). -/
inductive Item where
  /-- `SHA1_STORE_STATE(i)`, cgo/sha1.c:248-253; only those whose `DOSTORESTATEii` is defined (cgo/ubc_check.h:51-52)
  are compiled. -/
  | store (i : Nat)
  /-- `SHA1COMPRESS_FULL_ROUND1_STEP_LOAD`, cgo/sha1.c:208-214 -/
  | load (s : Step)
  /-- `SHA1COMPRESS_FULL_ROUND1_STEP_EXPAND` and `SHA1COMPRESS_FULL_ROUND2_STEP` … `4_STEP`, cgo/sha1.c:216-246 -/
  | expand (s : Step)
deriving DecidableEq, Repr

/-- cgo/sha1.c:368-450, `HASHCLASH_SHA1COMPRESS_ROUNDr_STEP` calls of `sha1_compression_W`. -/
def stepsW : List Step :=
  [⟨1, .a, .b, .c, .d, .e, 0⟩, ⟨1, .e, .a, .b, .c, .d, 1⟩, ⟨1, .d, .e, .a, .b, .c, 2⟩,
   ⟨1, .c, .d, .e, .a, .b, 3⟩, ⟨1, .b, .c, .d, .e, .a, 4⟩, ⟨1, .a, .b, .c, .d, .e, 5⟩,
   ⟨1, .e, .a, .b, .c, .d, 6⟩, ⟨1, .d, .e, .a, .b, .c, 7⟩, ⟨1, .c, .d, .e, .a, .b, 8⟩,
   ⟨1, .b, .c, .d, .e, .a, 9⟩, ⟨1, .a, .b, .c, .d, .e, 10⟩, ⟨1, .e, .a, .b, .c, .d, 11⟩,
   ⟨1, .d, .e, .a, .b, .c, 12⟩, ⟨1, .c, .d, .e, .a, .b, 13⟩, ⟨1, .b, .c, .d, .e, .a, 14⟩,
   ⟨1, .a, .b, .c, .d, .e, 15⟩, ⟨1, .e, .a, .b, .c, .d, 16⟩, ⟨1, .d, .e, .a, .b, .c, 17⟩,
   ⟨1, .c, .d, .e, .a, .b, 18⟩, ⟨1, .b, .c, .d, .e, .a, 19⟩, ⟨2, .a, .b, .c, .d, .e, 20⟩,
   ⟨2, .e, .a, .b, .c, .d, 21⟩, ⟨2, .d, .e, .a, .b, .c, 22⟩, ⟨2, .c, .d, .e, .a, .b, 23⟩,
   ⟨2, .b, .c, .d, .e, .a, 24⟩, ⟨2, .a, .b, .c, .d, .e, 25⟩, ⟨2, .e, .a, .b, .c, .d, 26⟩,
   ⟨2, .d, .e, .a, .b, .c, 27⟩, ⟨2, .c, .d, .e, .a, .b, 28⟩, ⟨2, .b, .c, .d, .e, .a, 29⟩,
   ⟨2, .a, .b, .c, .d, .e, 30⟩, ⟨2, .e, .a, .b, .c, .d, 31⟩, ⟨2, .d, .e, .a, .b, .c, 32⟩,
   ⟨2, .c, .d, .e, .a, .b, 33⟩, ⟨2, .b, .c, .d, .e, .a, 34⟩, ⟨2, .a, .b, .c, .d, .e, 35⟩,
   ⟨2, .e, .a, .b, .c, .d, 36⟩, ⟨2, .d, .e, .a, .b, .c, 37⟩, ⟨2, .c, .d, .e, .a, .b, 38⟩,
   ⟨2, .b, .c, .d, .e, .a, 39⟩, ⟨3, .a, .b, .c, .d, .e, 40⟩, ⟨3, .e, .a, .b, .c, .d, 41⟩,
   ⟨3, .d, .e, .a, .b, .c, 42⟩, ⟨3, .c, .d, .e, .a, .b, 43⟩, ⟨3, .b, .c, .d, .e, .a, 44⟩,
   ⟨3, .a, .b, .c, .d, .e, 45⟩, ⟨3, .e, .a, .b, .c, .d, 46⟩, ⟨3, .d, .e, .a, .b, .c, 47⟩,
   ⟨3, .c, .d, .e, .a, .b, 48⟩, ⟨3, .b, .c, .d, .e, .a, 49⟩, ⟨3, .a, .b, .c, .d, .e, 50⟩,
   ⟨3, .e, .a, .b, .c, .d, 51⟩, ⟨3, .d, .e, .a, .b, .c, 52⟩, ⟨3, .c, .d, .e, .a, .b, 53⟩,
   ⟨3, .b, .c, .d, .e, .a, 54⟩, ⟨3, .a, .b, .c, .d, .e, 55⟩, ⟨3, .e, .a, .b, .c, .d, 56⟩,
   ⟨3, .d, .e, .a, .b, .c, 57⟩, ⟨3, .c, .d, .e, .a, .b, 58⟩, ⟨3, .b, .c, .d, .e, .a, 59⟩,
   ⟨4, .a, .b, .c, .d, .e, 60⟩, ⟨4, .e, .a, .b, .c, .d, 61⟩, ⟨4, .d, .e, .a, .b, .c, 62⟩,
   ⟨4, .c, .d, .e, .a, .b, 63⟩, ⟨4, .b, .c, .d, .e, .a, 64⟩, ⟨4, .a, .b, .c, .d, .e, 65⟩,
   ⟨4, .e, .a, .b, .c, .d, 66⟩, ⟨4, .d, .e, .a, .b, .c, 67⟩, ⟨4, .c, .d, .e, .a, .b, 68⟩,
   ⟨4, .b, .c, .d, .e, .a, 69⟩, ⟨4, .a, .b, .c, .d, .e, 70⟩, ⟨4, .e, .a, .b, .c, .d, 71⟩,
   ⟨4, .d, .e, .a, .b, .c, 72⟩, ⟨4, .c, .d, .e, .a, .b, 73⟩, ⟨4, .b, .c, .d, .e, .a, 74⟩,
   ⟨4, .a, .b, .c, .d, .e, 75⟩, ⟨4, .e, .a, .b, .c, .d, 76⟩, ⟨4, .d, .e, .a, .b, .c, 77⟩,
   ⟨4, .c, .d, .e, .a, .b, 78⟩, ⟨4, .b, .c, .d, .e, .a, 79⟩]

/-- cgo/sha1.c:464-862, the calls of `sha1_compression_states`. -/
def stepsStates : List Item :=
  [.load ⟨1, .a, .b, .c, .d, .e, 0⟩, .load ⟨1, .e, .a, .b, .c, .d, 1⟩,
   .load ⟨1, .d, .e, .a, .b, .c, 2⟩, .load ⟨1, .c, .d, .e, .a, .b, 3⟩,
   .load ⟨1, .b, .c, .d, .e, .a, 4⟩, .load ⟨1, .a, .b, .c, .d, .e, 5⟩,
   .load ⟨1, .e, .a, .b, .c, .d, 6⟩, .load ⟨1, .d, .e, .a, .b, .c, 7⟩,
   .load ⟨1, .c, .d, .e, .a, .b, 8⟩, .load ⟨1, .b, .c, .d, .e, .a, 9⟩,
   .load ⟨1, .a, .b, .c, .d, .e, 10⟩, .load ⟨1, .e, .a, .b, .c, .d, 11⟩,
   .load ⟨1, .d, .e, .a, .b, .c, 12⟩, .load ⟨1, .c, .d, .e, .a, .b, 13⟩,
   .load ⟨1, .b, .c, .d, .e, .a, 14⟩, .load ⟨1, .a, .b, .c, .d, .e, 15⟩,
   .expand ⟨1, .e, .a, .b, .c, .d, 16⟩, .expand ⟨1, .d, .e, .a, .b, .c, 17⟩,
   .expand ⟨1, .c, .d, .e, .a, .b, 18⟩, .expand ⟨1, .b, .c, .d, .e, .a, 19⟩,
   .expand ⟨2, .a, .b, .c, .d, .e, 20⟩, .expand ⟨2, .e, .a, .b, .c, .d, 21⟩,
   .expand ⟨2, .d, .e, .a, .b, .c, 22⟩, .expand ⟨2, .c, .d, .e, .a, .b, 23⟩,
   .expand ⟨2, .b, .c, .d, .e, .a, 24⟩, .expand ⟨2, .a, .b, .c, .d, .e, 25⟩,
   .expand ⟨2, .e, .a, .b, .c, .d, 26⟩, .expand ⟨2, .d, .e, .a, .b, .c, 27⟩,
   .expand ⟨2, .c, .d, .e, .a, .b, 28⟩, .expand ⟨2, .b, .c, .d, .e, .a, 29⟩,
   .expand ⟨2, .a, .b, .c, .d, .e, 30⟩, .expand ⟨2, .e, .a, .b, .c, .d, 31⟩,
   .expand ⟨2, .d, .e, .a, .b, .c, 32⟩, .expand ⟨2, .c, .d, .e, .a, .b, 33⟩,
   .expand ⟨2, .b, .c, .d, .e, .a, 34⟩, .expand ⟨2, .a, .b, .c, .d, .e, 35⟩,
   .expand ⟨2, .e, .a, .b, .c, .d, 36⟩, .expand ⟨2, .d, .e, .a, .b, .c, 37⟩,
   .expand ⟨2, .c, .d, .e, .a, .b, 38⟩, .expand ⟨2, .b, .c, .d, .e, .a, 39⟩,
   .expand ⟨3, .a, .b, .c, .d, .e, 40⟩, .expand ⟨3, .e, .a, .b, .c, .d, 41⟩,
   .expand ⟨3, .d, .e, .a, .b, .c, 42⟩, .expand ⟨3, .c, .d, .e, .a, .b, 43⟩,
   .expand ⟨3, .b, .c, .d, .e, .a, 44⟩, .expand ⟨3, .a, .b, .c, .d, .e, 45⟩,
   .expand ⟨3, .e, .a, .b, .c, .d, 46⟩, .expand ⟨3, .d, .e, .a, .b, .c, 47⟩,
   .expand ⟨3, .c, .d, .e, .a, .b, 48⟩, .expand ⟨3, .b, .c, .d, .e, .a, 49⟩,
   .expand ⟨3, .a, .b, .c, .d, .e, 50⟩, .expand ⟨3, .e, .a, .b, .c, .d, 51⟩,
   .expand ⟨3, .d, .e, .a, .b, .c, 52⟩, .expand ⟨3, .c, .d, .e, .a, .b, 53⟩,
   .expand ⟨3, .b, .c, .d, .e, .a, 54⟩, .expand ⟨3, .a, .b, .c, .d, .e, 55⟩,
   .expand ⟨3, .e, .a, .b, .c, .d, 56⟩, .expand ⟨3, .d, .e, .a, .b, .c, 57⟩,
   .store 58, .expand ⟨3, .c, .d, .e, .a, .b, 58⟩,
   .expand ⟨3, .b, .c, .d, .e, .a, 59⟩, .expand ⟨4, .a, .b, .c, .d, .e, 60⟩,
   .expand ⟨4, .e, .a, .b, .c, .d, 61⟩, .expand ⟨4, .d, .e, .a, .b, .c, 62⟩,
   .expand ⟨4, .c, .d, .e, .a, .b, 63⟩, .expand ⟨4, .b, .c, .d, .e, .a, 64⟩,
   .store 65, .expand ⟨4, .a, .b, .c, .d, .e, 65⟩,
   .expand ⟨4, .e, .a, .b, .c, .d, 66⟩, .expand ⟨4, .d, .e, .a, .b, .c, 67⟩,
   .expand ⟨4, .c, .d, .e, .a, .b, 68⟩, .expand ⟨4, .b, .c, .d, .e, .a, 69⟩,
   .expand ⟨4, .a, .b, .c, .d, .e, 70⟩, .expand ⟨4, .e, .a, .b, .c, .d, 71⟩,
   .expand ⟨4, .d, .e, .a, .b, .c, 72⟩, .expand ⟨4, .c, .d, .e, .a, .b, 73⟩,
   .expand ⟨4, .b, .c, .d, .e, .a, 74⟩, .expand ⟨4, .a, .b, .c, .d, .e, 75⟩,
   .expand ⟨4, .e, .a, .b, .c, .d, 76⟩, .expand ⟨4, .d, .e, .a, .b, .c, 77⟩,
   .expand ⟨4, .c, .d, .e, .a, .b, 78⟩, .expand ⟨4, .b, .c, .d, .e, .a, 79⟩]

/-- cgo/sha1.c:875-1034, `if (t > k) HASHCLASH_SHA1COMPRESS_ROUNDr_STEP_BW(…)` of `SHA1_RECOMPRESS(t)`, with `k`. -/
def stepsBack : List (Nat × Step) :=
  [(79, ⟨4, .b, .c, .d, .e, .a, 79⟩), (78, ⟨4, .c, .d, .e, .a, .b, 78⟩),
   (77, ⟨4, .d, .e, .a, .b, .c, 77⟩), (76, ⟨4, .e, .a, .b, .c, .d, 76⟩),
   (75, ⟨4, .a, .b, .c, .d, .e, 75⟩), (74, ⟨4, .b, .c, .d, .e, .a, 74⟩),
   (73, ⟨4, .c, .d, .e, .a, .b, 73⟩), (72, ⟨4, .d, .e, .a, .b, .c, 72⟩),
   (71, ⟨4, .e, .a, .b, .c, .d, 71⟩), (70, ⟨4, .a, .b, .c, .d, .e, 70⟩),
   (69, ⟨4, .b, .c, .d, .e, .a, 69⟩), (68, ⟨4, .c, .d, .e, .a, .b, 68⟩),
   (67, ⟨4, .d, .e, .a, .b, .c, 67⟩), (66, ⟨4, .e, .a, .b, .c, .d, 66⟩),
   (65, ⟨4, .a, .b, .c, .d, .e, 65⟩), (64, ⟨4, .b, .c, .d, .e, .a, 64⟩),
   (63, ⟨4, .c, .d, .e, .a, .b, 63⟩), (62, ⟨4, .d, .e, .a, .b, .c, 62⟩),
   (61, ⟨4, .e, .a, .b, .c, .d, 61⟩), (60, ⟨4, .a, .b, .c, .d, .e, 60⟩),
   (59, ⟨3, .b, .c, .d, .e, .a, 59⟩), (58, ⟨3, .c, .d, .e, .a, .b, 58⟩),
   (57, ⟨3, .d, .e, .a, .b, .c, 57⟩), (56, ⟨3, .e, .a, .b, .c, .d, 56⟩),
   (55, ⟨3, .a, .b, .c, .d, .e, 55⟩), (54, ⟨3, .b, .c, .d, .e, .a, 54⟩),
   (53, ⟨3, .c, .d, .e, .a, .b, 53⟩), (52, ⟨3, .d, .e, .a, .b, .c, 52⟩),
   (51, ⟨3, .e, .a, .b, .c, .d, 51⟩), (50, ⟨3, .a, .b, .c, .d, .e, 50⟩),
   (49, ⟨3, .b, .c, .d, .e, .a, 49⟩), (48, ⟨3, .c, .d, .e, .a, .b, 48⟩),
   (47, ⟨3, .d, .e, .a, .b, .c, 47⟩), (46, ⟨3, .e, .a, .b, .c, .d, 46⟩),
   (45, ⟨3, .a, .b, .c, .d, .e, 45⟩), (44, ⟨3, .b, .c, .d, .e, .a, 44⟩),
   (43, ⟨3, .c, .d, .e, .a, .b, 43⟩), (42, ⟨3, .d, .e, .a, .b, .c, 42⟩),
   (41, ⟨3, .e, .a, .b, .c, .d, 41⟩), (40, ⟨3, .a, .b, .c, .d, .e, 40⟩),
   (39, ⟨2, .b, .c, .d, .e, .a, 39⟩), (38, ⟨2, .c, .d, .e, .a, .b, 38⟩),
   (37, ⟨2, .d, .e, .a, .b, .c, 37⟩), (36, ⟨2, .e, .a, .b, .c, .d, 36⟩),
   (35, ⟨2, .a, .b, .c, .d, .e, 35⟩), (34, ⟨2, .b, .c, .d, .e, .a, 34⟩),
   (33, ⟨2, .c, .d, .e, .a, .b, 33⟩), (32, ⟨2, .d, .e, .a, .b, .c, 32⟩),
   (31, ⟨2, .e, .a, .b, .c, .d, 31⟩), (30, ⟨2, .a, .b, .c, .d, .e, 30⟩),
   (29, ⟨2, .b, .c, .d, .e, .a, 29⟩), (28, ⟨2, .c, .d, .e, .a, .b, 28⟩),
   (27, ⟨2, .d, .e, .a, .b, .c, 27⟩), (26, ⟨2, .e, .a, .b, .c, .d, 26⟩),
   (25, ⟨2, .a, .b, .c, .d, .e, 25⟩), (24, ⟨2, .b, .c, .d, .e, .a, 24⟩),
   (23, ⟨2, .c, .d, .e, .a, .b, 23⟩), (22, ⟨2, .d, .e, .a, .b, .c, 22⟩),
   (21, ⟨2, .e, .a, .b, .c, .d, 21⟩), (20, ⟨2, .a, .b, .c, .d, .e, 20⟩),
   (19, ⟨1, .b, .c, .d, .e, .a, 19⟩), (18, ⟨1, .c, .d, .e, .a, .b, 18⟩),
   (17, ⟨1, .d, .e, .a, .b, .c, 17⟩), (16, ⟨1, .e, .a, .b, .c, .d, 16⟩),
   (15, ⟨1, .a, .b, .c, .d, .e, 15⟩), (14, ⟨1, .b, .c, .d, .e, .a, 14⟩),
   (13, ⟨1, .c, .d, .e, .a, .b, 13⟩), (12, ⟨1, .d, .e, .a, .b, .c, 12⟩),
   (11, ⟨1, .e, .a, .b, .c, .d, 11⟩), (10, ⟨1, .a, .b, .c, .d, .e, 10⟩),
   (9, ⟨1, .b, .c, .d, .e, .a, 9⟩), (8, ⟨1, .c, .d, .e, .a, .b, 8⟩),
   (7, ⟨1, .d, .e, .a, .b, .c, 7⟩), (6, ⟨1, .e, .a, .b, .c, .d, 6⟩),
   (5, ⟨1, .a, .b, .c, .d, .e, 5⟩), (4, ⟨1, .b, .c, .d, .e, .a, 4⟩),
   (3, ⟨1, .c, .d, .e, .a, .b, 3⟩), (2, ⟨1, .d, .e, .a, .b, .c, 2⟩),
   (1, ⟨1, .e, .a, .b, .c, .d, 1⟩), (0, ⟨1, .a, .b, .c, .d, .e, 0⟩)]

/-- cgo/sha1.c:1045-1204, `if (t <= k) HASHCLASH_SHA1COMPRESS_ROUNDr_STEP(…)` of `SHA1_RECOMPRESS(t)`, with `k`. -/
def stepsForw : List (Nat × Step) :=
  [(0, ⟨1, .a, .b, .c, .d, .e, 0⟩), (1, ⟨1, .e, .a, .b, .c, .d, 1⟩),
   (2, ⟨1, .d, .e, .a, .b, .c, 2⟩), (3, ⟨1, .c, .d, .e, .a, .b, 3⟩),
   (4, ⟨1, .b, .c, .d, .e, .a, 4⟩), (5, ⟨1, .a, .b, .c, .d, .e, 5⟩),
   (6, ⟨1, .e, .a, .b, .c, .d, 6⟩), (7, ⟨1, .d, .e, .a, .b, .c, 7⟩),
   (8, ⟨1, .c, .d, .e, .a, .b, 8⟩), (9, ⟨1, .b, .c, .d, .e, .a, 9⟩),
   (10, ⟨1, .a, .b, .c, .d, .e, 10⟩), (11, ⟨1, .e, .a, .b, .c, .d, 11⟩),
   (12, ⟨1, .d, .e, .a, .b, .c, 12⟩), (13, ⟨1, .c, .d, .e, .a, .b, 13⟩),
   (14, ⟨1, .b, .c, .d, .e, .a, 14⟩), (15, ⟨1, .a, .b, .c, .d, .e, 15⟩),
   (16, ⟨1, .e, .a, .b, .c, .d, 16⟩), (17, ⟨1, .d, .e, .a, .b, .c, 17⟩),
   (18, ⟨1, .c, .d, .e, .a, .b, 18⟩), (19, ⟨1, .b, .c, .d, .e, .a, 19⟩),
   (20, ⟨2, .a, .b, .c, .d, .e, 20⟩), (21, ⟨2, .e, .a, .b, .c, .d, 21⟩),
   (22, ⟨2, .d, .e, .a, .b, .c, 22⟩), (23, ⟨2, .c, .d, .e, .a, .b, 23⟩),
   (24, ⟨2, .b, .c, .d, .e, .a, 24⟩), (25, ⟨2, .a, .b, .c, .d, .e, 25⟩),
   (26, ⟨2, .e, .a, .b, .c, .d, 26⟩), (27, ⟨2, .d, .e, .a, .b, .c, 27⟩),
   (28, ⟨2, .c, .d, .e, .a, .b, 28⟩), (29, ⟨2, .b, .c, .d, .e, .a, 29⟩),
   (30, ⟨2, .a, .b, .c, .d, .e, 30⟩), (31, ⟨2, .e, .a, .b, .c, .d, 31⟩),
   (32, ⟨2, .d, .e, .a, .b, .c, 32⟩), (33, ⟨2, .c, .d, .e, .a, .b, 33⟩),
   (34, ⟨2, .b, .c, .d, .e, .a, 34⟩), (35, ⟨2, .a, .b, .c, .d, .e, 35⟩),
   (36, ⟨2, .e, .a, .b, .c, .d, 36⟩), (37, ⟨2, .d, .e, .a, .b, .c, 37⟩),
   (38, ⟨2, .c, .d, .e, .a, .b, 38⟩), (39, ⟨2, .b, .c, .d, .e, .a, 39⟩),
   (40, ⟨3, .a, .b, .c, .d, .e, 40⟩), (41, ⟨3, .e, .a, .b, .c, .d, 41⟩),
   (42, ⟨3, .d, .e, .a, .b, .c, 42⟩), (43, ⟨3, .c, .d, .e, .a, .b, 43⟩),
   (44, ⟨3, .b, .c, .d, .e, .a, 44⟩), (45, ⟨3, .a, .b, .c, .d, .e, 45⟩),
   (46, ⟨3, .e, .a, .b, .c, .d, 46⟩), (47, ⟨3, .d, .e, .a, .b, .c, 47⟩),
   (48, ⟨3, .c, .d, .e, .a, .b, 48⟩), (49, ⟨3, .b, .c, .d, .e, .a, 49⟩),
   (50, ⟨3, .a, .b, .c, .d, .e, 50⟩), (51, ⟨3, .e, .a, .b, .c, .d, 51⟩),
   (52, ⟨3, .d, .e, .a, .b, .c, 52⟩), (53, ⟨3, .c, .d, .e, .a, .b, 53⟩),
   (54, ⟨3, .b, .c, .d, .e, .a, 54⟩), (55, ⟨3, .a, .b, .c, .d, .e, 55⟩),
   (56, ⟨3, .e, .a, .b, .c, .d, 56⟩), (57, ⟨3, .d, .e, .a, .b, .c, 57⟩),
   (58, ⟨3, .c, .d, .e, .a, .b, 58⟩), (59, ⟨3, .b, .c, .d, .e, .a, 59⟩),
   (60, ⟨4, .a, .b, .c, .d, .e, 60⟩), (61, ⟨4, .e, .a, .b, .c, .d, 61⟩),
   (62, ⟨4, .d, .e, .a, .b, .c, 62⟩), (63, ⟨4, .c, .d, .e, .a, .b, 63⟩),
   (64, ⟨4, .b, .c, .d, .e, .a, 64⟩), (65, ⟨4, .a, .b, .c, .d, .e, 65⟩),
   (66, ⟨4, .e, .a, .b, .c, .d, 66⟩), (67, ⟨4, .d, .e, .a, .b, .c, 67⟩),
   (68, ⟨4, .c, .d, .e, .a, .b, 68⟩), (69, ⟨4, .b, .c, .d, .e, .a, 69⟩),
   (70, ⟨4, .a, .b, .c, .d, .e, 70⟩), (71, ⟨4, .e, .a, .b, .c, .d, 71⟩),
   (72, ⟨4, .d, .e, .a, .b, .c, 72⟩), (73, ⟨4, .c, .d, .e, .a, .b, 73⟩),
   (74, ⟨4, .b, .c, .d, .e, .a, 74⟩), (75, ⟨4, .a, .b, .c, .d, .e, 75⟩),
   (76, ⟨4, .e, .a, .b, .c, .d, 76⟩), (77, ⟨4, .d, .e, .a, .b, .c, 77⟩),
   (78, ⟨4, .c, .d, .e, .a, .b, 78⟩), (79, ⟨4, .b, .c, .d, .e, .a, 79⟩)]

end Verif.Model.C
