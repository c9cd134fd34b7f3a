import Verif.Lemmas.ParTable
import Verif.Model.Parser.Driver
/-!
# The grammar of written scripts

Rules for the trees of the texts of `Verif.Spec.FlText`, and where in the tables of the parser each kind of tree may come up: in which states, before which
tokens.  The lists were found by following the rules from the start; what counts is that they are closed, which is checked at the end.

Kinds are symbols, with multiples of 128 added to tell apart trees with the same symbol: 78 are operands and 334 other expressions, 206 and 462 those that begin with a brace;
189 and 235 to 237 are lists of more than one element; 193 is an empty block.
-/

namespace Bob.Parse

structure WRule where
  kind : Nat
  pid : Nat
  rhs : List (List Nat)
deriving DecidableEq

def wRules : List WRule := [
  ⟨60, 0, [[61, 189]]⟩,
  ⟨61, 0, [[64], [2]]⟩,
  ⟨61, 0, [[63]]⟩,
  ⟨189, 0, [[61, 189], [61]]⟩,
  ⟨63, 0, [[65, 72, 74]]⟩,
  ⟨64, 0, [[66, 71, 75, 76, 77, 78, 334, 88, 89]]⟩,
  ⟨65, 9, [[6], [61, 189], [7]]⟩,
  ⟨193, 0, [[6], [7]]⟩,
  ⟨66, 1, [[8], [67]]⟩,
  ⟨66, 10, [[8], [68], [67]]⟩,
  ⟨67, 2, [[104]]⟩,
  ⟨67, 20, [[104], [9], [67]]⟩,
  ⟨68, 0, [[9]]⟩,
  ⟨69, 0, [[10]]⟩,
  ⟨106, 0, [[69]]⟩,
  ⟨70, 0, [[106]]⟩,
  ⟨71, 3, [[12], [104], [13], [14]]⟩,
  ⟨71, 30, [[12], [104], [13], [85], [14]]⟩,
  ⟨71, 14, [[70], [12], [104], [13], [14]]⟩,
  ⟨71, 41, [[70], [12], [104], [13], [85], [14]]⟩,
  ⟨72, 31, [[16], [104], [13], [14], [65, 193]]⟩,
  ⟨72, 39, [[16], [104], [13], [85], [14], [65, 193]]⟩,
  ⟨72, 42, [[70], [16], [104], [13], [14], [65, 193]]⟩,
  ⟨72, 48, [[70], [16], [104], [13], [85], [14], [65, 193]]⟩,
  ⟨73, 13, [[17], [17], [65, 78, 334]]⟩,
  ⟨73, 22, [[17], [85], [17], [65, 78, 334]]⟩,
  ⟨74, 31, [[18], [104], [13], [14], [65, 193]]⟩,
  ⟨74, 39, [[18], [104], [13], [85], [14], [65, 193]]⟩,
  ⟨75, 5, [[19], [78, 206, 334, 462]]⟩,
  ⟨76, 6, [[20], [78, 206, 334, 462]]⟩,
  ⟨77, 0, [[21]]⟩,
  ⟨77, 7, [[21], [78, 206, 334, 462]]⟩,
  ⟨78, 0, [[79, 80, 81, 87, 97, 98, 104]]⟩,
  ⟨206, 0, [[101, 208, 209, 226]]⟩,
  ⟨334, 0, [[73, 91, 96]]⟩,
  ⟨462, 0, [[224]]⟩,
  ⟨79, 11, [[13], [78, 206, 334, 462], [14]]⟩,
  ⟨80, 15, [[78], [9], [104]]⟩,
  ⟨208, 15, [[206], [9], [104]]⟩,
  ⟨81, 16, [[78], [13], [14]]⟩,
  ⟨81, 27, [[78], [13], [86], [14]]⟩,
  ⟨209, 16, [[206], [13], [14]]⟩,
  ⟨209, 27, [[206], [13], [86], [14]]⟩,
  ⟨84, 4, [[104]]⟩,
  ⟨85, 0, [[84]]⟩,
  ⟨85, 0, [[84], [107, 235]]⟩,
  ⟨107, 0, [[26], [84]]⟩,
  ⟨235, 0, [[107, 235], [107]]⟩,
  ⟨86, 0, [[78, 206, 334, 462]]⟩,
  ⟨86, 0, [[78, 206, 334, 462], [108, 236]]⟩,
  ⟨108, 0, [[26], [78, 206, 334, 462]]⟩,
  ⟨236, 0, [[108, 236], [108]]⟩,
  ⟨87, 0, [[54, 55, 59, 105]]⟩,
  ⟨105, 0, [[56, 57]]⟩,
  ⟨88, 3, [[28], [104]]⟩,
  ⟨88, 14, [[70], [28], [104]]⟩,
  ⟨88, 25, [[28], [104], [29], [78, 206, 334, 462]]⟩,
  ⟨88, 35, [[70], [28], [104], [29], [78, 206, 334, 462]]⟩,
  ⟨89, 18, [[80, 98, 104], [29], [78, 206, 334, 462]]⟩,
  ⟨90, 0, [[30, 31]]⟩,
  ⟨91, 8, [[90], [78, 206]]⟩,
  ⟨92, 0, [[33, 34, 35]]⟩,
  ⟨93, 0, [[30, 36]]⟩,
  ⟨94, 0, [[24, 25, 37, 38, 39, 40]]⟩,
  ⟨95, 0, [[42, 43]]⟩,
  ⟨96, 17, [[78], [32, 41, 92, 93, 94, 95], [78, 206]]⟩,
  ⟨224, 17, [[206], [32, 41, 92, 93, 94, 95], [78, 206]]⟩,
  ⟨97, 0, [[44], [45]]⟩,
  ⟨97, 0, [[44], [78, 206, 334, 462], [45]]⟩,
  ⟨97, 0, [[44], [78, 206, 334, 462], [108, 236], [45]]⟩,
  ⟨98, 29, [[78], [44], [78, 206, 334, 462], [45]]⟩,
  ⟨226, 29, [[206], [44], [78, 206, 334, 462], [45]]⟩,
  ⟨100, 19, [[78, 206, 334, 462], [27], [78, 206, 334, 462]]⟩,
  ⟨101, 0, [[6], [7]]⟩,
  ⟨101, 0, [[6], [100], [7]]⟩,
  ⟨101, 0, [[6], [100], [109, 237], [7]]⟩,
  ⟨109, 0, [[26], [100]]⟩,
  ⟨237, 0, [[109, 237], [109]]⟩,
  ⟨104, 0, [[53]]⟩]

def shape (k : Nat) : Nat := k % 128

/-- Which tokens a kind may begin with. -/
def firstMasks : List (Nat × Nat) := [
  (60, 855701524880241984),
  (61, 855701524880241984),
  (63, 328768),
  (64, 855701524879914240),
  (65, 64),
  (66, 256),
  (67, 9007199254740992),
  (68, 512),
  (69, 1024),
  (70, 1024),
  (71, 5120),
  (72, 66560),
  (73, 131072),
  (74, 262144),
  (75, 524288),
  (76, 1048576),
  (77, 2097152),
  (78, 855701521386446848),
  (79, 8192),
  (80, 855701521386446848),
  (81, 855701521386446848),
  (84, 9007199254740992),
  (85, 9007199254740992),
  (86, 855701524607803456),
  (87, 846676729945653248),
  (88, 268436480),
  (89, 855701521386446848),
  (90, 3221225472),
  (91, 3221225472),
  (92, 60129542144),
  (93, 69793218560),
  (94, 2061634633728),
  (95, 13194139533312),
  (96, 855701521386446848),
  (97, 17592186044416),
  (98, 855701521386446848),
  (100, 855701524607803456),
  (101, 64),
  (104, 9007199254740992),
  (105, 216172782113783808),
  (106, 1024),
  (107, 67108864),
  (108, 67108864),
  (109, 67108864),
  (189, 855701524880241984),
  (193, 64),
  (206, 64),
  (208, 64),
  (209, 64),
  (224, 64),
  (226, 64),
  (235, 67108864),
  (236, 67108864),
  (237, 67108864),
  (334, 855701524607803392),
  (462, 64)]

def lookup (k : Nat) : List (Nat × Nat) → Nat
  | [] => 0
  | (a, m) :: l => bif Nat.beq k a then m else lookup k l

def firstMask (k : Nat) : Nat := bif Nat.blt k 60 then 1 <<< k else lookup k firstMasks

/-! In which states, and before which tokens: a state with the set of tokens. -/

def adm60 : List (Nat × Nat) := [(1, 1)]
def adm61 : List (Nat × Nat) := [(1, 855701524880241985), (2, 855701524880242112), (3, 855701524880242112), (4, 855701524880242112), (5, 855701524880242112), (6, 855701524880242112), (7, 855701524880242112), (9, 855701524880242112), (10, 855701524880242112), (11, 855701524880241985)]
def adm64 : List (Nat × Nat) := [(1, 4), (2, 4), (3, 4), (4, 4), (5, 4), (6, 4), (7, 4), (9, 4), (10, 4), (11, 4)]
def adm65 : List (Nat × Nat) := [(1, 855701524880241985), (2, 855701524880242112), (3, 855701524880242112), (4, 855701524880242112), (5, 855701524880242112), (6, 855701524880242112), (7, 855701524880242112), (9, 855701524880242112), (10, 855701524880242112), (11, 855701524880241985), (34, 35184573431936), (39, 4), (41, 35184573431936), (42, 4), (290, 855701524880242113), (301, 855701524880242113), (303, 855701524880242113), (307, 855701524880242113), (308, 855701524880242113), (311, 855701524880242113)]
def adm67 : List (Nat × Nat) := [(220, 4), (245, 4), (250, 4)]
def adm68 : List (Nat × Nat) := [(220, 9007199254740992)]
def adm69 : List (Nat × Nat) := [(1, 268505088), (2, 268505088), (3, 268505088), (4, 268505088), (5, 268505088), (6, 268505088), (7, 268505088), (9, 268505088), (10, 268505088), (11, 268505088)]
def adm73 : List (Nat × Nat) := [(1, 4), (2, 4), (3, 4), (4, 4), (5, 4), (6, 4), (7, 4), (9, 4), (10, 4), (11, 4), (15, 4), (16, 134217728), (17, 67125248), (18, 134217728), (19, 134217728), (20, 134217728), (21, 134217728), (22, 134217728), (23, 67125248), (24, 35184439197696), (26, 35184372088832), (27, 35184439197696), (28, 35184439197696), (29, 67125248), (32, 35184372088832), (33, 35184439197696), (34, 35184573431936), (36, 35184439197696), (38, 67125248), (39, 4), (40, 35184439197696), (41, 35184573431936), (42, 4), (43, 67108992), (48, 16384), (49, 4), (50, 4), (51, 4), (52, 4), (54, 4), (60, 16384)]
def adm78 : List (Nat × Nat) := [(1, 35181201203716), (2, 35181201203716), (3, 35181201203716), (4, 35181201203716), (5, 35181201203716), (6, 35181201203716), (7, 35181201203716), (9, 35181201203716), (10, 35181201203716), (11, 35181201203716), (15, 35181201203716), (16, 35181335421440), (17, 35181268328960), (18, 35181335421440), (19, 35181335421440), (20, 35181335421440), (21, 35181335421440), (22, 35181335421440), (23, 35181268328960), (24, 70365640401408), (26, 70365573292544), (27, 70365640401408), (28, 70365640401408), (29, 35181268328960), (32, 70365573292544), (33, 70365640401408), (34, 70365774635648), (36, 70365640401408), (38, 35181268328960), (39, 35181201203716), (40, 70365640401408), (41, 70365774635648), (42, 35181201203716), (43, 35181268312704), (44, 17592186053124), (45, 52776759485056), (46, 52776759485056), (47, 52776759485056), (48, 35181201220096), (49, 35181201203716), (50, 35181201203716), (51, 35181201203716), (52, 35181201203716), (53, 17592186053124), (54, 35181201203716), (55, 17592186053124), (56, 52776759485056), (58, 17592186053124), (59, 17592186053124), (60, 35181201220096), (61, 52776759485056), (62, 52776759485056), (63, 17592186053124), (64, 17592186053124), (66, 52776759485056)]
def adm80 : List (Nat × Nat) := [(1, 35181738074628), (2, 35181738074628), (3, 35181738074628), (4, 35181738074628), (5, 35181738074628), (6, 35181738074628), (7, 35181738074628), (9, 35181738074628), (10, 35181738074628), (11, 35181738074628), (15, 35181201203716), (16, 35181335421440), (17, 35181268328960), (18, 35181335421440), (19, 35181335421440), (20, 35181335421440), (21, 35181335421440), (22, 35181335421440), (23, 35181268328960), (24, 70365640401408), (26, 70365573292544), (27, 70365640401408), (28, 70365640401408), (29, 35181268328960), (32, 70365573292544), (33, 70365640401408), (34, 70365774635648), (36, 70365640401408), (38, 35181268328960), (39, 35181201203716), (40, 70365640401408), (41, 70365774635648), (42, 35181201203716), (43, 35181268312704), (44, 17592186053124), (45, 52776759485056), (46, 52776759485056), (47, 52776759485056), (48, 35181201220096), (49, 35181201203716), (50, 35181201203716), (51, 35181201203716), (52, 35181201203716), (53, 17592186053124), (54, 35181201203716), (55, 17592186053124), (56, 52776759485056), (58, 17592186053124), (59, 17592186053124), (60, 35181201220096), (61, 52776759485056), (62, 52776759485056), (63, 17592186053124), (64, 17592186053124), (66, 52776759485056)]
def adm84 : List (Nat × Nat) := [(214, 67125248), (215, 67239936), (217, 67125248), (219, 67239936), (223, 67125248), (224, 67125248), (225, 67125248), (228, 67239936), (231, 67239936), (232, 67125248), (236, 67125248)]
def adm85 : List (Nat × Nat) := [(214, 16384), (215, 131072), (217, 16384), (219, 131072), (223, 16384), (224, 16384), (225, 16384)]
def adm86 : List (Nat × Nat) := [(17, 16384), (23, 16384)]
def adm90 : List (Nat × Nat) := [(1, 855701521386446912), (2, 855701521386446912), (3, 855701521386446912), (4, 855701521386446912), (5, 855701521386446912), (6, 855701521386446912), (7, 855701521386446912), (9, 855701521386446912), (10, 855701521386446912), (11, 855701521386446912), (15, 855701521386446912), (16, 855701521386446912), (17, 855701521386446912), (18, 855701521386446912), (19, 855701521386446912), (20, 855701521386446912), (21, 855701521386446912), (22, 855701521386446912), (23, 855701521386446912), (24, 855701521386446912), (26, 855701521386446912), (27, 855701521386446912), (28, 855701521386446912), (29, 855701521386446912), (32, 855701521386446912), (33, 855701521386446912), (34, 855701521386446912), (36, 855701521386446912), (38, 855701521386446912), (39, 855701521386446912), (40, 855701521386446912), (41, 855701521386446912), (42, 855701521386446912), (43, 855701521386446912), (48, 855701521386446912), (49, 855701521386446912), (50, 855701521386446912), (51, 855701521386446912), (52, 855701521386446912), (54, 855701521386446912), (60, 855701521386446912)]
def adm92 : List (Nat × Nat) := [(73, 855701521386446912), (74, 855701521386446912), (76, 855701521386446912), (80, 855701521386446912), (81, 855701521386446912), (86, 855701521386446912), (87, 855701521386446912), (93, 855701521386446912), (94, 855701521386446912), (98, 855701521386446912), (121, 855701521386446912), (133, 855701521386446912), (143, 855701521386446912), (145, 855701521386446912), (147, 855701521386446912), (148, 855701521386446912), (149, 855701521386446912), (150, 855701521386446912), (151, 855701521386446912), (153, 855701521386446912), (154, 855701521386446912), (168, 855701521386446912)]
def adm100 : List (Nat × Nat) := [(16, 67108992), (18, 67108992), (19, 67108992), (20, 67108992), (21, 67108992), (22, 67108992)]
def adm101 : List (Nat × Nat) := [(15, 35181201203716), (16, 35181335421440), (17, 35181268328960), (18, 35181335421440), (19, 35181335421440), (20, 35181335421440), (21, 35181335421440), (22, 35181335421440), (23, 35181268328960), (24, 70365640401408), (26, 70365573292544), (27, 70365640401408), (28, 70365640401408), (29, 35181268328960), (32, 70365573292544), (33, 70365640401408), (36, 70365640401408), (38, 35181268328960), (40, 70365640401408), (43, 35181268312704), (44, 17592186053124), (45, 52776759485056), (46, 52776759485056), (47, 52776759485056), (48, 35181201220096), (49, 35181201203716), (50, 35181201203716), (51, 35181201203716), (52, 35181201203716), (53, 17592186053124), (54, 35181201203716), (55, 17592186053124), (56, 52776759485056), (58, 17592186053124), (59, 17592186053124), (60, 35181201220096), (61, 52776759485056), (62, 52776759485056), (63, 17592186053124), (64, 17592186053124), (66, 52776759485056)]
def adm104 : List (Nat × Nat) := [(1, 35181738074628), (2, 35181738074628), (3, 35181738074628), (4, 35181738074628), (5, 35181738074628), (6, 35181738074628), (7, 35181738074628), (9, 35181738074628), (10, 35181738074628), (11, 35181738074628), (15, 35181201203716), (16, 35181335421440), (17, 35181268328960), (18, 35181335421440), (19, 35181335421440), (20, 35181335421440), (21, 35181335421440), (22, 35181335421440), (23, 35181268328960), (24, 70365640401408), (26, 70365573292544), (27, 70365640401408), (28, 70365640401408), (29, 35181268328960), (32, 70365573292544), (33, 70365640401408), (34, 70365774635648), (36, 70365640401408), (38, 35181268328960), (39, 35181201203716), (40, 70365640401408), (41, 70365774635648), (42, 35181201203716), (43, 35181268312704), (44, 17592186053124), (45, 52776759485056), (46, 52776759485056), (47, 52776759485056), (48, 35181201220096), (49, 35181201203716), (50, 35181201203716), (51, 35181201203716), (52, 35181201203716), (53, 17592186053124), (54, 35181201203716), (55, 17592186053124), (56, 52776759485056), (58, 17592186053124), (59, 17592186053124), (60, 35181201220096), (61, 52776759485056), (62, 52776759485056), (63, 17592186053124), (64, 17592186053124), (66, 52776759485056), (214, 67125248), (215, 67239936), (216, 8192), (217, 67125248), (218, 8192), (219, 67239936), (220, 516), (221, 8192), (222, 8192), (223, 67125248), (224, 67125248), (225, 67125248), (228, 67239936), (231, 67239936), (232, 67125248), (236, 67125248), (245, 516), (250, 516), (255, 70365774635648), (257, 536870916), (259, 35181738074628), (264, 536870916), (266, 8192)]
def adm107 : List (Nat × Nat) := [(284, 67125248), (292, 67125248), (293, 67239936), (300, 67239936)]
def adm108 : List (Nat × Nat) := [(143, 35184439197696), (147, 67125248), (148, 35184439197696), (294, 35184439197696), (296, 67125248), (299, 35184439197696)]
def adm109 : List (Nat × Nat) := [(286, 67108992), (288, 67108992), (297, 67108992), (305, 67108992)]
def adm189 : List (Nat × Nat) := [(1, 855701524880241985), (2, 855701524880242112), (3, 855701524880242112), (4, 855701524880242112), (5, 855701524880242112), (10, 855701524880242112)]
def adm193 : List (Nat × Nat) := [(290, 855701524880242113), (301, 855701524880242113), (303, 855701524880242113), (307, 855701524880242113), (308, 855701524880242113), (311, 855701524880242113)]
def adm224 : List (Nat × Nat) := [(15, 4), (16, 134217728), (17, 67125248), (18, 134217728), (19, 134217728), (20, 134217728), (21, 134217728), (22, 134217728), (23, 67125248), (24, 35184439197696), (26, 35184372088832), (27, 35184439197696), (28, 35184439197696), (29, 67125248), (32, 35184372088832), (33, 35184439197696), (36, 35184439197696), (38, 67125248), (40, 35184439197696), (43, 67108992), (48, 16384), (49, 4), (50, 4), (51, 4), (52, 4), (54, 4), (60, 16384)]
def adm235 : List (Nat × Nat) := [(284, 67125248), (300, 67239936)]
def adm236 : List (Nat × Nat) := [(143, 35184439197696), (147, 67125248), (148, 35184439197696)]
def adm237 : List (Nat × Nat) := [(286, 67108992), (297, 67108992)]

def adms : Arr (List (Nat × Nat)) := (.node 91 (.node 75 (.node 68 (.node 64 (.node 61 (.leaf adm60) (.node 63 (.leaf adm61) (.leaf adm61))) (.node 66 (.node 65 (.leaf adm64) (.leaf adm65)) (.node 67 (.leaf adm64) (.leaf adm67)))) (.node 71 (.node 69 (.leaf adm68) (.node 70 (.leaf adm69) (.leaf adm69))) (.node 73 (.node 72 (.leaf adm64) (.leaf adm61)) (.node 74 (.leaf adm73) (.leaf adm61))))) (.node 84 (.node 78 (.node 76 (.leaf adm64) (.node 77 (.leaf adm64) (.leaf adm64))) (.node 80 (.node 79 (.leaf adm78) (.leaf adm78)) (.node 81 (.leaf adm80) (.leaf adm78)))) (.node 87 (.node 85 (.leaf adm84) (.node 86 (.leaf adm85) (.leaf adm86))) (.node 89 (.node 88 (.leaf adm78) (.leaf adm64)) (.node 90 (.leaf adm64) (.leaf adm90)))))) (.node 108 (.node 98 (.node 94 (.node 92 (.leaf adm73) (.node 93 (.leaf adm92) (.leaf adm92))) (.node 96 (.node 95 (.leaf adm92) (.leaf adm92)) (.node 97 (.leaf adm73) (.leaf adm78)))) (.node 104 (.node 100 (.leaf adm80) (.node 101 (.leaf adm100) (.leaf adm101))) (.node 106 (.node 105 (.leaf adm104) (.leaf adm78)) (.node 107 (.leaf adm69) (.leaf adm107))))) (.node 224 (.node 193 (.node 109 (.leaf adm108) (.node 189 (.leaf adm109) (.leaf adm189))) (.node 208 (.node 206 (.leaf adm193) (.leaf adm101)) (.node 209 (.leaf adm101) (.leaf adm101)))) (.node 236 (.node 226 (.leaf adm224) (.node 235 (.leaf adm101) (.leaf adm235))) (.node 334 (.node 237 (.leaf adm236) (.leaf adm237)) (.node 462 (.leaf adm73) (.leaf adm224)))))))

def wKinds : List Nat := [60, 61, 63, 64, 65, 66, 67, 68, 69, 70, 71, 72, 73, 74, 75, 76, 77, 78, 79, 80, 81, 84, 85, 86, 87, 88, 89, 90, 91, 92, 93, 94, 95, 96, 97, 98, 100, 101, 104, 105, 106, 107, 108, 109, 189, 193, 206, 208, 209, 224, 226, 235, 236, 237, 334, 462]

/-- Tokens may be anywhere. -/
def admMask (k q : Nat) : Nat := bif Nat.blt k 60 then 2 ^ 60 - 1 else lookup q (adms.get k)

def subMask (m m' : Nat) : Bool := Nat.beq (Nat.land m m') m

/-- Whether the actions are the given ones for all tokens in a set. -/
def covers (a : Act) : Nat → List (List Act × Nat) → Bool
  | m, [] => Nat.beq m 0
  | m, (as, ts) :: gs => (Nat.beq (Nat.land m ts) 0 || as.filter (!·.isRepeat) == [a]) && covers a (Nat.xor m (Nat.land m ts)) gs

def walkOk (a : Act) : List (List Nat) → Nat → Nat → Bool
  | [], q, m => covers a m (rows.get q).acts
  | p :: ps, q, m => p.all fun k => !Nat.beq (edge q (shape k)) 0 &&
      subMask (match ps with | [] => m | p' :: _ => p'.foldl (fun m k => Nat.lor m (firstMask k)) 0) (admMask k q) && walkOk a ps (edge q (shape k)) m

def ruleOk (r : WRule) : Bool :=
  (adms.get r.kind).all fun x => walkOk (.reduce (shape r.kind) r.rhs.length r.pid) r.rhs x.1 x.2

def headOk (r : WRule) : Bool :=
  match r.rhs with
  | [] => false
  | p :: _ => p.all fun k => subMask (firstMask k) (firstMask r.kind)

theorem heads_ok : (wRules.all fun r => headOk r && Nat.ble 60 (shape r.kind) && Nat.blt (shape r.kind) 110 && !Nat.beq (shape r.kind) 62) = true := by decide +kernel

theorem rules_ok : (wRules.all ruleOk) = true := by decide +kernel

end Bob.Parse
