/-! GENERATED by tools/gen_locales.py from /repo/internal/data; do not edit. -/
set_option autoImplicit false
namespace Verif.Data

/-- What the loader and the parser need of `data.LocaleData` (00-locale-data.go). -/
structure LocaleInfo where
  name : List Char
  dateOrder : List Char
  noWordSpacing : Bool
  splitterGroup : Nat
deriving DecidableEq

/-- internal/data/01-language-order.go `LanguageOrder`. -/
def languageOrder : List (List Char × Nat) :=
  [(['e', 'n'], 0),
   (['e', 's'], 1),
   (['d', 'e'], 2),
   (['j', 'a'], 3),
   (['f', 'r'], 4),
   (['p', 't'], 5),
   (['r', 'u'], 6),
   (['i', 't'], 7),
   (['n', 'l'], 8),
   (['p', 'l'], 9),
   (['t', 'r'], 10),
   (['f', 'a'], 11),
   (['z', 'h'], 12),
   (['z', 'h', '-', 'H', 'a', 'n', 's'], 13),
   (['v', 'i'], 14),
   (['i', 'd'], 15),
   (['c', 's'], 16),
   (['k', 'o'], 17),
   (['u', 'k'], 18),
   (['h', 'u'], 19),
   (['s', 'v'], 20),
   (['r', 'o'], 21),
   (['a', 'r'], 22),
   (['e', 'l'], 23),
   (['h', 'e'], 24),
   (['d', 'a'], 25),
   (['f', 'i'], 26),
   (['s', 'k'], 27),
   (['t', 'h'], 28),
   (['b', 'g'], 29),
   (['h', 'r'], 30),
   (['s', 'r'], 31),
   (['s', 'r', '-', 'C', 'y', 'r', 'l'], 32),
   (['l', 't'], 33),
   (['n', 'b'], 34),
   (['s', 'l'], 35),
   (['c', 'a'], 36),
   (['e', 't'], 37),
   (['l', 'v'], 38),
   (['h', 'i'], 39),
   (['b', 'n'], 40),
   (['u', 'r'], 41),
   (['s', 'w'], 42),
   (['p', 'a', '-', 'A', 'r', 'a', 'b'], 43),
   (['t', 'e'], 44),
   (['m', 'r'], 45),
   (['t', 'a'], 46),
   (['y', 'u', 'e'], 47),
   (['f', 'i', 'l'], 48),
   (['g', 'u'], 49),
   (['k', 'n'], 50),
   (['p', 's'], 51),
   (['z', 'h', '-', 'H', 'a', 'n', 't'], 52),
   (['m', 'l'], 53),
   (['o', 'r'], 54),
   (['m', 'y'], 55),
   (['p', 'a'], 56),
   (['p', 'a', '-', 'G', 'u', 'r', 'u'], 57),
   (['a', 'm'], 58),
   (['o', 'm'], 59),
   (['h', 'a'], 60),
   (['u', 'z'], 61),
   (['u', 'z', '-', 'L', 'a', 't', 'n'], 62),
   (['y', 'o'], 63),
   (['m', 's'], 64),
   (['i', 'g'], 65),
   (['m', 'g'], 66),
   (['n', 'e'], 67),
   (['a', 's'], 68),
   (['s', 'o'], 69),
   (['s', 'i'], 70),
   (['k', 'm'], 71),
   (['z', 'u'], 72),
   (['s', 'n'], 73),
   (['k', 'k'], 74),
   (['r', 'w'], 75),
   (['c', 'k', 'b'], 76),
   (['q', 'u'], 77),
   (['a', 'k'], 78),
   (['b', 'e'], 79),
   (['t', 'i'], 80),
   (['a', 'z'], 81),
   (['a', 'z', '-', 'L', 'a', 't', 'n'], 82),
   (['a', 'f'], 83),
   (['s', 'r', '-', 'L', 'a', 't', 'n'], 84),
   (['i', 'i'], 85),
   (['b', 'm'], 86),
   (['k', 'i'], 87),
   (['g', 's', 'w'], 88),
   (['u', 'g'], 89),
   (['z', 'g', 'h'], 90),
   (['f', 'f'], 91),
   (['r', 'n'], 92),
   (['s', 'q'], 93),
   (['k', 's'], 94),
   (['h', 'y'], 95),
   (['l', 'u', 'y'], 96),
   (['l', 'g'], 97),
   (['l', 'o'], 98),
   (['b', 'e', 'm'], 99),
   (['k', 'o', 'k'], 100),
   (['l', 'u', 'o'], 101),
   (['u', 'z', '-', 'C', 'y', 'r', 'l'], 102),
   (['k', 'a'], 103),
   (['e', 'e'], 104),
   (['m', 'z', 'n'], 105),
   (['b', 's', '-', 'C', 'y', 'r', 'l'], 106),
   (['b', 's'], 107),
   (['b', 's', '-', 'L', 'a', 't', 'n'], 108),
   (['k', 'l', 'n'], 109),
   (['k', 'a', 'm'], 110),
   (['g', 'l'], 111),
   (['t', 'z', 'm'], 112),
   (['d', 'j', 'e'], 113),
   (['k', 'a', 'b'], 114),
   (['b', 'o'], 115),
   (['s', 'h', 'i', '-', 'L', 'a', 't', 'n'], 116),
   (['s', 'h', 'i'], 117),
   (['s', 'h', 'i', '-', 'T', 'f', 'n', 'g'], 118),
   (['m', 'n'], 119),
   (['l', 'n'], 120),
   (['k', 'y'], 121),
   (['s', 'g'], 122),
   (['n', 'y', 'n'], 123),
   (['g', 'u', 'z'], 124),
   (['c', 'g', 'g'], 125),
   (['x', 'o', 'g'], 126),
   (['l', 'r', 'c'], 127),
   (['m', 'e', 'r'], 128),
   (['l', 'u'], 129),
   (['t', 'e', 'o'], 130),
   (['b', 'r', 'x'], 131),
   (['n', 'd'], 132),
   (['m', 'k'], 133),
   (['u', 'z', '-', 'A', 'r', 'a', 'b'], 134),
   (['m', 'a', 's'], 135),
   (['n', 'n'], 136),
   (['k', 'd', 'e'], 137),
   (['m', 'f', 'e'], 138),
   (['s', 'e', 'h'], 139),
   (['m', 'g', 'h'], 140),
   (['a', 'z', '-', 'C', 'y', 'r', 'l'], 141),
   (['g', 'a'], 142),
   (['e', 'u'], 143),
   (['y', 'i'], 144),
   (['c', 'e'], 145),
   (['k', 's', 'b'], 146),
   (['b', 'e', 'z'], 147),
   (['e', 'w', 'o'], 148),
   (['f', 'y'], 149),
   (['e', 'b', 'u'], 150),
   (['n', 'u', 's'], 151),
   (['a', 's', 't'], 152),
   (['a', 's', 'a'], 153),
   (['s', 'e', 's'], 154),
   (['o', 's'], 155),
   (['b', 'r'], 156),
   (['c', 'y'], 157),
   (['k', 'e', 'a'], 158),
   (['l', 'a', 'g'], 159),
   (['s', 'a', 'h'], 160),
   (['m', 't'], 161),
   (['v', 'u', 'n'], 162),
   (['r', 'o', 'f'], 163),
   (['j', 'm', 'c'], 164),
   (['l', 'b'], 165),
   (['d', 'a', 'v'], 166),
   (['d', 'y', 'o'], 167),
   (['d', 'z'], 168),
   (['n', 'n', 'h'], 169),
   (['i', 's'], 170),
   (['k', 'h', 'q'], 171),
   (['b', 'a', 's'], 172),
   (['n', 'a', 'q'], 173),
   (['m', 'u', 'a'], 174),
   (['k', 's', 'h'], 175),
   (['s', 'a', 'q'], 176),
   (['s', 'e'], 177),
   (['d', 'u', 'a'], 178),
   (['r', 'w', 'k'], 179),
   (['m', 'g', 'o'], 180),
   (['s', 'b', 'p'], 181),
   (['t', 'o'], 182),
   (['j', 'g', 'o'], 183),
   (['k', 's', 'f'], 184),
   (['f', 'o'], 185),
   (['g', 'd'], 186),
   (['k', 'l'], 187),
   (['r', 'm'], 188),
   (['f', 'u', 'r'], 189),
   (['a', 'g', 'q'], 190),
   (['h', 'a', 'w'], 191),
   (['c', 'h', 'r'], 192),
   (['h', 's', 'b'], 193),
   (['w', 'a', 'e'], 194),
   (['n', 'm', 'g'], 195),
   (['l', 'k', 't'], 196),
   (['t', 'w', 'q'], 197),
   (['d', 's', 'b'], 198),
   (['y', 'a', 'v'], 199),
   (['k', 'w'], 200),
   (['g', 'v'], 201),
   (['s', 'm', 'n'], 202),
   (['e', 'o'], 203),
   (['t', 'l'], 204)]

/-- internal/data/04-locale-order.go `LocaleOrder`. -/
def localeOrder : List (List Char × Nat) :=
  [(['e', 'n'], 0),
   (['e', 'n', '-', '0', '0', '1'], 0),
   (['e', 'n', '-', '1', '5', '0'], 0),
   (['e', 'n', '-', 'A', 'G'], 0),
   (['e', 'n', '-', 'A', 'I'], 0),
   (['e', 'n', '-', 'A', 'S'], 0),
   (['e', 'n', '-', 'A', 'T'], 0),
   (['e', 'n', '-', 'A', 'U'], 0),
   (['e', 'n', '-', 'B', 'B'], 0),
   (['e', 'n', '-', 'B', 'E'], 0),
   (['e', 'n', '-', 'B', 'I'], 0),
   (['e', 'n', '-', 'B', 'M'], 0),
   (['e', 'n', '-', 'B', 'S'], 0),
   (['e', 'n', '-', 'B', 'W'], 0),
   (['e', 'n', '-', 'B', 'Z'], 0),
   (['e', 'n', '-', 'C', 'A'], 0),
   (['e', 'n', '-', 'C', 'C'], 0),
   (['e', 'n', '-', 'C', 'H'], 0),
   (['e', 'n', '-', 'C', 'K'], 0),
   (['e', 'n', '-', 'C', 'M'], 0),
   (['e', 'n', '-', 'C', 'X'], 0),
   (['e', 'n', '-', 'C', 'Y'], 0),
   (['e', 'n', '-', 'D', 'E'], 0),
   (['e', 'n', '-', 'D', 'G'], 0),
   (['e', 'n', '-', 'D', 'K'], 0),
   (['e', 'n', '-', 'D', 'M'], 0),
   (['e', 'n', '-', 'E', 'R'], 0),
   (['e', 'n', '-', 'F', 'I'], 0),
   (['e', 'n', '-', 'F', 'J'], 0),
   (['e', 'n', '-', 'F', 'K'], 0),
   (['e', 'n', '-', 'F', 'M'], 0),
   (['e', 'n', '-', 'G', 'B'], 0),
   (['e', 'n', '-', 'G', 'D'], 0),
   (['e', 'n', '-', 'G', 'G'], 0),
   (['e', 'n', '-', 'G', 'H'], 0),
   (['e', 'n', '-', 'G', 'I'], 0),
   (['e', 'n', '-', 'G', 'M'], 0),
   (['e', 'n', '-', 'G', 'U'], 0),
   (['e', 'n', '-', 'G', 'Y'], 0),
   (['e', 'n', '-', 'H', 'K'], 0),
   (['e', 'n', '-', 'I', 'E'], 0),
   (['e', 'n', '-', 'I', 'L'], 0),
   (['e', 'n', '-', 'I', 'M'], 0),
   (['e', 'n', '-', 'I', 'N'], 0),
   (['e', 'n', '-', 'I', 'O'], 0),
   (['e', 'n', '-', 'J', 'E'], 0),
   (['e', 'n', '-', 'J', 'M'], 0),
   (['e', 'n', '-', 'K', 'E'], 0),
   (['e', 'n', '-', 'K', 'I'], 0),
   (['e', 'n', '-', 'K', 'N'], 0),
   (['e', 'n', '-', 'K', 'Y'], 0),
   (['e', 'n', '-', 'L', 'C'], 0),
   (['e', 'n', '-', 'L', 'R'], 0),
   (['e', 'n', '-', 'L', 'S'], 0),
   (['e', 'n', '-', 'M', 'G'], 0),
   (['e', 'n', '-', 'M', 'H'], 0),
   (['e', 'n', '-', 'M', 'O'], 0),
   (['e', 'n', '-', 'M', 'P'], 0),
   (['e', 'n', '-', 'M', 'S'], 0),
   (['e', 'n', '-', 'M', 'T'], 0),
   (['e', 'n', '-', 'M', 'U'], 0),
   (['e', 'n', '-', 'M', 'W'], 0),
   (['e', 'n', '-', 'M', 'Y'], 0),
   (['e', 'n', '-', 'N', 'A'], 0),
   (['e', 'n', '-', 'N', 'F'], 0),
   (['e', 'n', '-', 'N', 'G'], 0),
   (['e', 'n', '-', 'N', 'L'], 0),
   (['e', 'n', '-', 'N', 'R'], 0),
   (['e', 'n', '-', 'N', 'U'], 0),
   (['e', 'n', '-', 'N', 'Z'], 0),
   (['e', 'n', '-', 'P', 'G'], 0),
   (['e', 'n', '-', 'P', 'H'], 0),
   (['e', 'n', '-', 'P', 'K'], 0),
   (['e', 'n', '-', 'P', 'N'], 0),
   (['e', 'n', '-', 'P', 'R'], 0),
   (['e', 'n', '-', 'P', 'W'], 0),
   (['e', 'n', '-', 'R', 'W'], 0),
   (['e', 'n', '-', 'S', 'B'], 0),
   (['e', 'n', '-', 'S', 'C'], 0),
   (['e', 'n', '-', 'S', 'D'], 0),
   (['e', 'n', '-', 'S', 'E'], 0),
   (['e', 'n', '-', 'S', 'G'], 0),
   (['e', 'n', '-', 'S', 'H'], 0),
   (['e', 'n', '-', 'S', 'I'], 0),
   (['e', 'n', '-', 'S', 'L'], 0),
   (['e', 'n', '-', 'S', 'S'], 0),
   (['e', 'n', '-', 'S', 'X'], 0),
   (['e', 'n', '-', 'S', 'Z'], 0),
   (['e', 'n', '-', 'T', 'C'], 0),
   (['e', 'n', '-', 'T', 'K'], 0),
   (['e', 'n', '-', 'T', 'O'], 0),
   (['e', 'n', '-', 'T', 'T'], 0),
   (['e', 'n', '-', 'T', 'V'], 0),
   (['e', 'n', '-', 'T', 'Z'], 0),
   (['e', 'n', '-', 'U', 'G'], 0),
   (['e', 'n', '-', 'U', 'M'], 0),
   (['e', 'n', '-', 'V', 'C'], 0),
   (['e', 'n', '-', 'V', 'G'], 0),
   (['e', 'n', '-', 'V', 'I'], 0),
   (['e', 'n', '-', 'V', 'U'], 0),
   (['e', 'n', '-', 'W', 'S'], 0),
   (['e', 'n', '-', 'Z', 'A'], 0),
   (['e', 'n', '-', 'Z', 'M'], 0),
   (['e', 'n', '-', 'Z', 'W'], 0),
   (['e', 's'], 1),
   (['e', 's', '-', '4', '1', '9'], 1),
   (['e', 's', '-', 'A', 'R'], 1),
   (['e', 's', '-', 'B', 'O'], 1),
   (['e', 's', '-', 'B', 'R'], 1),
   (['e', 's', '-', 'B', 'Z'], 1),
   (['e', 's', '-', 'C', 'L'], 1),
   (['e', 's', '-', 'C', 'O'], 1),
   (['e', 's', '-', 'C', 'R'], 1),
   (['e', 's', '-', 'C', 'U'], 1),
   (['e', 's', '-', 'D', 'O'], 1),
   (['e', 's', '-', 'E', 'A'], 1),
   (['e', 's', '-', 'E', 'C'], 1),
   (['e', 's', '-', 'G', 'Q'], 1),
   (['e', 's', '-', 'G', 'T'], 1),
   (['e', 's', '-', 'H', 'N'], 1),
   (['e', 's', '-', 'I', 'C'], 1),
   (['e', 's', '-', 'M', 'X'], 1),
   (['e', 's', '-', 'N', 'I'], 1),
   (['e', 's', '-', 'P', 'A'], 1),
   (['e', 's', '-', 'P', 'E'], 1),
   (['e', 's', '-', 'P', 'H'], 1),
   (['e', 's', '-', 'P', 'R'], 1),
   (['e', 's', '-', 'P', 'Y'], 1),
   (['e', 's', '-', 'S', 'V'], 1),
   (['e', 's', '-', 'U', 'S'], 1),
   (['e', 's', '-', 'U', 'Y'], 1),
   (['e', 's', '-', 'V', 'E'], 1),
   (['d', 'e'], 2),
   (['d', 'e', '-', 'A', 'T'], 2),
   (['d', 'e', '-', 'B', 'E'], 2),
   (['d', 'e', '-', 'C', 'H'], 2),
   (['d', 'e', '-', 'I', 'T'], 2),
   (['d', 'e', '-', 'L', 'I'], 2),
   (['d', 'e', '-', 'L', 'U'], 2),
   (['j', 'a'], 3),
   (['f', 'r'], 4),
   (['f', 'r', '-', 'B', 'E'], 4),
   (['f', 'r', '-', 'B', 'F'], 4),
   (['f', 'r', '-', 'B', 'I'], 4),
   (['f', 'r', '-', 'B', 'J'], 4),
   (['f', 'r', '-', 'B', 'L'], 4),
   (['f', 'r', '-', 'C', 'A'], 4),
   (['f', 'r', '-', 'C', 'D'], 4),
   (['f', 'r', '-', 'C', 'F'], 4),
   (['f', 'r', '-', 'C', 'G'], 4),
   (['f', 'r', '-', 'C', 'H'], 4),
   (['f', 'r', '-', 'C', 'I'], 4),
   (['f', 'r', '-', 'C', 'M'], 4),
   (['f', 'r', '-', 'D', 'J'], 4),
   (['f', 'r', '-', 'D', 'Z'], 4),
   (['f', 'r', '-', 'G', 'A'], 4),
   (['f', 'r', '-', 'G', 'F'], 4),
   (['f', 'r', '-', 'G', 'N'], 4),
   (['f', 'r', '-', 'G', 'P'], 4),
   (['f', 'r', '-', 'G', 'Q'], 4),
   (['f', 'r', '-', 'H', 'T'], 4),
   (['f', 'r', '-', 'K', 'M'], 4),
   (['f', 'r', '-', 'L', 'U'], 4),
   (['f', 'r', '-', 'M', 'A'], 4),
   (['f', 'r', '-', 'M', 'C'], 4),
   (['f', 'r', '-', 'M', 'F'], 4),
   (['f', 'r', '-', 'M', 'G'], 4),
   (['f', 'r', '-', 'M', 'L'], 4),
   (['f', 'r', '-', 'M', 'Q'], 4),
   (['f', 'r', '-', 'M', 'R'], 4),
   (['f', 'r', '-', 'M', 'U'], 4),
   (['f', 'r', '-', 'N', 'C'], 4),
   (['f', 'r', '-', 'N', 'E'], 4),
   (['f', 'r', '-', 'P', 'F'], 4),
   (['f', 'r', '-', 'P', 'M'], 4),
   (['f', 'r', '-', 'R', 'E'], 4),
   (['f', 'r', '-', 'R', 'W'], 4),
   (['f', 'r', '-', 'S', 'C'], 4),
   (['f', 'r', '-', 'S', 'N'], 4),
   (['f', 'r', '-', 'S', 'Y'], 4),
   (['f', 'r', '-', 'T', 'D'], 4),
   (['f', 'r', '-', 'T', 'G'], 4),
   (['f', 'r', '-', 'T', 'N'], 4),
   (['f', 'r', '-', 'V', 'U'], 4),
   (['f', 'r', '-', 'W', 'F'], 4),
   (['f', 'r', '-', 'Y', 'T'], 4),
   (['p', 't'], 5),
   (['p', 't', '-', 'A', 'O'], 5),
   (['p', 't', '-', 'C', 'H'], 5),
   (['p', 't', '-', 'C', 'V'], 5),
   (['p', 't', '-', 'G', 'Q'], 5),
   (['p', 't', '-', 'G', 'W'], 5),
   (['p', 't', '-', 'L', 'U'], 5),
   (['p', 't', '-', 'M', 'O'], 5),
   (['p', 't', '-', 'M', 'Z'], 5),
   (['p', 't', '-', 'P', 'T'], 5),
   (['p', 't', '-', 'S', 'T'], 5),
   (['p', 't', '-', 'T', 'L'], 5),
   (['r', 'u'], 6),
   (['r', 'u', '-', 'B', 'Y'], 6),
   (['r', 'u', '-', 'K', 'G'], 6),
   (['r', 'u', '-', 'K', 'Z'], 6),
   (['r', 'u', '-', 'M', 'D'], 6),
   (['r', 'u', '-', 'U', 'A'], 6),
   (['i', 't'], 7),
   (['i', 't', '-', 'C', 'H'], 7),
   (['i', 't', '-', 'S', 'M'], 7),
   (['i', 't', '-', 'V', 'A'], 7),
   (['n', 'l'], 8),
   (['n', 'l', '-', 'A', 'W'], 8),
   (['n', 'l', '-', 'B', 'E'], 8),
   (['n', 'l', '-', 'B', 'Q'], 8),
   (['n', 'l', '-', 'C', 'W'], 8),
   (['n', 'l', '-', 'S', 'R'], 8),
   (['n', 'l', '-', 'S', 'X'], 8),
   (['p', 'l'], 9),
   (['t', 'r'], 10),
   (['t', 'r', '-', 'C', 'Y'], 10),
   (['f', 'a'], 11),
   (['f', 'a', '-', 'A', 'F'], 11),
   (['z', 'h'], 12),
   (['z', 'h', '-', 'H', 'a', 'n', 's'], 13),
   (['z', 'h', '-', 'H', 'a', 'n', 's', '-', 'H', 'K'], 13),
   (['z', 'h', '-', 'H', 'a', 'n', 's', '-', 'M', 'O'], 13),
   (['z', 'h', '-', 'H', 'a', 'n', 's', '-', 'S', 'G'], 13),
   (['v', 'i'], 14),
   (['i', 'd'], 15),
   (['c', 's'], 16),
   (['k', 'o'], 17),
   (['k', 'o', '-', 'K', 'P'], 17),
   (['u', 'k'], 18),
   (['h', 'u'], 19),
   (['s', 'v'], 20),
   (['s', 'v', '-', 'A', 'X'], 20),
   (['s', 'v', '-', 'F', 'I'], 20),
   (['r', 'o'], 21),
   (['r', 'o', '-', 'M', 'D'], 21),
   (['a', 'r'], 22),
   (['a', 'r', '-', 'A', 'E'], 22),
   (['a', 'r', '-', 'B', 'H'], 22),
   (['a', 'r', '-', 'D', 'J'], 22),
   (['a', 'r', '-', 'D', 'Z'], 22),
   (['a', 'r', '-', 'E', 'G'], 22),
   (['a', 'r', '-', 'E', 'H'], 22),
   (['a', 'r', '-', 'E', 'R'], 22),
   (['a', 'r', '-', 'I', 'L'], 22),
   (['a', 'r', '-', 'I', 'Q'], 22),
   (['a', 'r', '-', 'J', 'O'], 22),
   (['a', 'r', '-', 'K', 'M'], 22),
   (['a', 'r', '-', 'K', 'W'], 22),
   (['a', 'r', '-', 'L', 'B'], 22),
   (['a', 'r', '-', 'L', 'Y'], 22),
   (['a', 'r', '-', 'M', 'A'], 22),
   (['a', 'r', '-', 'M', 'R'], 22),
   (['a', 'r', '-', 'O', 'M'], 22),
   (['a', 'r', '-', 'P', 'S'], 22),
   (['a', 'r', '-', 'Q', 'A'], 22),
   (['a', 'r', '-', 'S', 'A'], 22),
   (['a', 'r', '-', 'S', 'D'], 22),
   (['a', 'r', '-', 'S', 'O'], 22),
   (['a', 'r', '-', 'S', 'S'], 22),
   (['a', 'r', '-', 'S', 'Y'], 22),
   (['a', 'r', '-', 'T', 'D'], 22),
   (['a', 'r', '-', 'T', 'N'], 22),
   (['a', 'r', '-', 'Y', 'E'], 22),
   (['e', 'l'], 23),
   (['e', 'l', '-', 'C', 'Y'], 23),
   (['h', 'e'], 24),
   (['d', 'a'], 25),
   (['d', 'a', '-', 'G', 'L'], 25),
   (['f', 'i'], 26),
   (['s', 'k'], 27),
   (['t', 'h'], 28),
   (['b', 'g'], 29),
   (['h', 'r'], 30),
   (['h', 'r', '-', 'B', 'A'], 30),
   (['s', 'r'], 31),
   (['s', 'r', '-', 'C', 'y', 'r', 'l'], 32),
   (['s', 'r', '-', 'C', 'y', 'r', 'l', '-', 'B', 'A'], 32),
   (['s', 'r', '-', 'C', 'y', 'r', 'l', '-', 'M', 'E'], 32),
   (['s', 'r', '-', 'C', 'y', 'r', 'l', '-', 'X', 'K'], 32),
   (['l', 't'], 33),
   (['n', 'b'], 34),
   (['n', 'b', '-', 'S', 'J'], 34),
   (['s', 'l'], 35),
   (['c', 'a'], 36),
   (['c', 'a', '-', 'A', 'D'], 36),
   (['c', 'a', '-', 'F', 'R'], 36),
   (['c', 'a', '-', 'I', 'T'], 36),
   (['e', 't'], 37),
   (['l', 'v'], 38),
   (['h', 'i'], 39),
   (['b', 'n'], 40),
   (['b', 'n', '-', 'I', 'N'], 40),
   (['u', 'r'], 41),
   (['u', 'r', '-', 'I', 'N'], 41),
   (['s', 'w'], 42),
   (['s', 'w', '-', 'C', 'D'], 42),
   (['s', 'w', '-', 'K', 'E'], 42),
   (['s', 'w', '-', 'U', 'G'], 42),
   (['p', 'a', '-', 'A', 'r', 'a', 'b'], 43),
   (['t', 'e'], 44),
   (['m', 'r'], 45),
   (['t', 'a'], 46),
   (['t', 'a', '-', 'L', 'K'], 46),
   (['t', 'a', '-', 'M', 'Y'], 46),
   (['t', 'a', '-', 'S', 'G'], 46),
   (['y', 'u', 'e'], 47),
   (['f', 'i', 'l'], 48),
   (['g', 'u'], 49),
   (['k', 'n'], 50),
   (['p', 's'], 51),
   (['z', 'h', '-', 'H', 'a', 'n', 't'], 52),
   (['z', 'h', '-', 'H', 'a', 'n', 't', '-', 'H', 'K'], 52),
   (['z', 'h', '-', 'H', 'a', 'n', 't', '-', 'M', 'O'], 52),
   (['m', 'l'], 53),
   (['o', 'r'], 54),
   (['m', 'y'], 55),
   (['p', 'a'], 56),
   (['p', 'a', '-', 'G', 'u', 'r', 'u'], 57),
   (['a', 'm'], 58),
   (['o', 'm'], 59),
   (['o', 'm', '-', 'K', 'E'], 59),
   (['h', 'a'], 60),
   (['h', 'a', '-', 'G', 'H'], 60),
   (['h', 'a', '-', 'N', 'E'], 60),
   (['u', 'z'], 61),
   (['u', 'z', '-', 'L', 'a', 't', 'n'], 62),
   (['y', 'o'], 63),
   (['y', 'o', '-', 'B', 'J'], 63),
   (['m', 's'], 64),
   (['m', 's', '-', 'B', 'N'], 64),
   (['m', 's', '-', 'S', 'G'], 64),
   (['i', 'g'], 65),
   (['m', 'g'], 66),
   (['n', 'e'], 67),
   (['n', 'e', '-', 'I', 'N'], 67),
   (['a', 's'], 68),
   (['s', 'o'], 69),
   (['s', 'o', '-', 'D', 'J'], 69),
   (['s', 'o', '-', 'E', 'T'], 69),
   (['s', 'o', '-', 'K', 'E'], 69),
   (['s', 'i'], 70),
   (['k', 'm'], 71),
   (['z', 'u'], 72),
   (['s', 'n'], 73),
   (['k', 'k'], 74),
   (['r', 'w'], 75),
   (['c', 'k', 'b'], 76),
   (['c', 'k', 'b', '-', 'I', 'R'], 76),
   (['q', 'u'], 77),
   (['q', 'u', '-', 'B', 'O'], 77),
   (['q', 'u', '-', 'E', 'C'], 77),
   (['a', 'k'], 78),
   (['b', 'e'], 79),
   (['t', 'i'], 80),
   (['t', 'i', '-', 'E', 'R'], 80),
   (['a', 'z'], 81),
   (['a', 'z', '-', 'L', 'a', 't', 'n'], 82),
   (['a', 'f'], 83),
   (['a', 'f', '-', 'N', 'A'], 83),
   (['s', 'r', '-', 'L', 'a', 't', 'n'], 84),
   (['s', 'r', '-', 'L', 'a', 't', 'n', '-', 'B', 'A'], 84),
   (['s', 'r', '-', 'L', 'a', 't', 'n', '-', 'M', 'E'], 84),
   (['s', 'r', '-', 'L', 'a', 't', 'n', '-', 'X', 'K'], 84),
   (['i', 'i'], 85),
   (['b', 'm'], 86),
   (['k', 'i'], 87),
   (['g', 's', 'w'], 88),
   (['g', 's', 'w', '-', 'F', 'R'], 88),
   (['g', 's', 'w', '-', 'L', 'I'], 88),
   (['u', 'g'], 89),
   (['z', 'g', 'h'], 90),
   (['f', 'f'], 91),
   (['f', 'f', '-', 'C', 'M'], 91),
   (['f', 'f', '-', 'G', 'N'], 91),
   (['f', 'f', '-', 'M', 'R'], 91),
   (['r', 'n'], 92),
   (['s', 'q'], 93),
   (['s', 'q', '-', 'M', 'K'], 93),
   (['s', 'q', '-', 'X', 'K'], 93),
   (['k', 's'], 94),
   (['h', 'y'], 95),
   (['l', 'u', 'y'], 96),
   (['l', 'g'], 97),
   (['l', 'o'], 98),
   (['b', 'e', 'm'], 99),
   (['k', 'o', 'k'], 100),
   (['l', 'u', 'o'], 101),
   (['u', 'z', '-', 'C', 'y', 'r', 'l'], 102),
   (['k', 'a'], 103),
   (['e', 'e'], 104),
   (['e', 'e', '-', 'T', 'G'], 104),
   (['m', 'z', 'n'], 105),
   (['b', 's', '-', 'C', 'y', 'r', 'l'], 106),
   (['b', 's'], 107),
   (['b', 's', '-', 'L', 'a', 't', 'n'], 108),
   (['k', 'l', 'n'], 109),
   (['k', 'a', 'm'], 110),
   (['g', 'l'], 111),
   (['t', 'z', 'm'], 112),
   (['d', 'j', 'e'], 113),
   (['k', 'a', 'b'], 114),
   (['b', 'o'], 115),
   (['b', 'o', '-', 'I', 'N'], 115),
   (['s', 'h', 'i', '-', 'L', 'a', 't', 'n'], 116),
   (['s', 'h', 'i'], 117),
   (['s', 'h', 'i', '-', 'T', 'f', 'n', 'g'], 118),
   (['m', 'n'], 119),
   (['l', 'n'], 120),
   (['l', 'n', '-', 'A', 'O'], 120),
   (['l', 'n', '-', 'C', 'F'], 120),
   (['l', 'n', '-', 'C', 'G'], 120),
   (['k', 'y'], 121),
   (['s', 'g'], 122),
   (['n', 'y', 'n'], 123),
   (['g', 'u', 'z'], 124),
   (['c', 'g', 'g'], 125),
   (['x', 'o', 'g'], 126),
   (['l', 'r', 'c'], 127),
   (['l', 'r', 'c', '-', 'I', 'Q'], 127),
   (['m', 'e', 'r'], 128),
   (['l', 'u'], 129),
   (['t', 'e', 'o'], 130),
   (['t', 'e', 'o', '-', 'K', 'E'], 130),
   (['b', 'r', 'x'], 131),
   (['n', 'd'], 132),
   (['m', 'k'], 133),
   (['u', 'z', '-', 'A', 'r', 'a', 'b'], 134),
   (['m', 'a', 's'], 135),
   (['m', 'a', 's', '-', 'T', 'Z'], 135),
   (['n', 'n'], 136),
   (['k', 'd', 'e'], 137),
   (['m', 'f', 'e'], 138),
   (['s', 'e', 'h'], 139),
   (['m', 'g', 'h'], 140),
   (['a', 'z', '-', 'C', 'y', 'r', 'l'], 141),
   (['g', 'a'], 142),
   (['e', 'u'], 143),
   (['y', 'i'], 144),
   (['c', 'e'], 145),
   (['k', 's', 'b'], 146),
   (['b', 'e', 'z'], 147),
   (['e', 'w', 'o'], 148),
   (['f', 'y'], 149),
   (['e', 'b', 'u'], 150),
   (['n', 'u', 's'], 151),
   (['a', 's', 't'], 152),
   (['a', 's', 'a'], 153),
   (['s', 'e', 's'], 154),
   (['o', 's'], 155),
   (['o', 's', '-', 'R', 'U'], 155),
   (['b', 'r'], 156),
   (['c', 'y'], 157),
   (['k', 'e', 'a'], 158),
   (['l', 'a', 'g'], 159),
   (['s', 'a', 'h'], 160),
   (['m', 't'], 161),
   (['v', 'u', 'n'], 162),
   (['r', 'o', 'f'], 163),
   (['j', 'm', 'c'], 164),
   (['l', 'b'], 165),
   (['d', 'a', 'v'], 166),
   (['d', 'y', 'o'], 167),
   (['d', 'z'], 168),
   (['n', 'n', 'h'], 169),
   (['i', 's'], 170),
   (['k', 'h', 'q'], 171),
   (['b', 'a', 's'], 172),
   (['n', 'a', 'q'], 173),
   (['m', 'u', 'a'], 174),
   (['k', 's', 'h'], 175),
   (['s', 'a', 'q'], 176),
   (['s', 'e'], 177),
   (['s', 'e', '-', 'F', 'I'], 177),
   (['s', 'e', '-', 'S', 'E'], 177),
   (['d', 'u', 'a'], 178),
   (['r', 'w', 'k'], 179),
   (['m', 'g', 'o'], 180),
   (['s', 'b', 'p'], 181),
   (['t', 'o'], 182),
   (['j', 'g', 'o'], 183),
   (['k', 's', 'f'], 184),
   (['f', 'o'], 185),
   (['f', 'o', '-', 'D', 'K'], 185),
   (['g', 'd'], 186),
   (['k', 'l'], 187),
   (['r', 'm'], 188),
   (['f', 'u', 'r'], 189),
   (['a', 'g', 'q'], 190),
   (['h', 'a', 'w'], 191),
   (['c', 'h', 'r'], 192),
   (['h', 's', 'b'], 193),
   (['w', 'a', 'e'], 194),
   (['n', 'm', 'g'], 195),
   (['l', 'k', 't'], 196),
   (['t', 'w', 'q'], 197),
   (['d', 's', 'b'], 198),
   (['y', 'a', 'v'], 199),
   (['k', 'w'], 200),
   (['g', 'v'], 201),
   (['s', 'm', 'n'], 202),
   (['e', 'o'], 203),
   (['t', 'l'], 204)]

/-- internal/data/00-locale-data.go `GetLocaleData`: case label and the fields of the locale it returns (after `merge` with the parent locale). -/
def localeData : List (List Char × LocaleInfo) :=
  [(['a', 'f'], ⟨['a', 'f'], ['Y', 'M', 'D'], false, 0⟩),
   (['a', 'f', '-', 'N', 'A'], ⟨['a', 'f', '-', 'N', 'A'], ['Y', 'M', 'D'], false, 0⟩),
   (['a', 'g', 'q'], ⟨['a', 'g', 'q'], ['D', 'M', 'Y'], false, 0⟩),
   (['a', 'k'], ⟨['a', 'k'], ['Y', 'M', 'D'], false, 0⟩),
   (['a', 'm'], ⟨['a', 'm'], ['D', 'M', 'Y'], false, 0⟩),
   (['a', 'r'], ⟨['a', 'r'], ['D', 'M', 'Y'], false, 6⟩),
   (['a', 'r', '-', 'A', 'E'], ⟨['a', 'r', '-', 'A', 'E'], ['D', 'M', 'Y'], false, 6⟩),
   (['a', 'r', '-', 'B', 'H'], ⟨['a', 'r', '-', 'B', 'H'], ['D', 'M', 'Y'], false, 6⟩),
   (['a', 'r', '-', 'D', 'J'], ⟨['a', 'r', '-', 'D', 'J'], ['D', 'M', 'Y'], false, 6⟩),
   (['a', 'r', '-', 'D', 'Z'], ⟨['a', 'r', '-', 'D', 'Z'], ['D', 'M', 'Y'], false, 6⟩),
   (['a', 'r', '-', 'E', 'G'], ⟨['a', 'r', '-', 'E', 'G'], ['D', 'M', 'Y'], false, 6⟩),
   (['a', 'r', '-', 'E', 'H'], ⟨['a', 'r', '-', 'E', 'H'], ['D', 'M', 'Y'], false, 6⟩),
   (['a', 'r', '-', 'E', 'R'], ⟨['a', 'r', '-', 'E', 'R'], ['D', 'M', 'Y'], false, 6⟩),
   (['a', 'r', '-', 'I', 'L'], ⟨['a', 'r', '-', 'I', 'L'], ['D', 'M', 'Y'], false, 6⟩),
   (['a', 'r', '-', 'I', 'Q'], ⟨['a', 'r', '-', 'I', 'Q'], ['D', 'M', 'Y'], false, 6⟩),
   (['a', 'r', '-', 'J', 'O'], ⟨['a', 'r', '-', 'J', 'O'], ['D', 'M', 'Y'], false, 6⟩),
   (['a', 'r', '-', 'K', 'M'], ⟨['a', 'r', '-', 'K', 'M'], ['D', 'M', 'Y'], false, 6⟩),
   (['a', 'r', '-', 'K', 'W'], ⟨['a', 'r', '-', 'K', 'W'], ['D', 'M', 'Y'], false, 6⟩),
   (['a', 'r', '-', 'L', 'B'], ⟨['a', 'r', '-', 'L', 'B'], ['D', 'M', 'Y'], false, 6⟩),
   (['a', 'r', '-', 'L', 'Y'], ⟨['a', 'r', '-', 'L', 'Y'], ['D', 'M', 'Y'], false, 6⟩),
   (['a', 'r', '-', 'M', 'A'], ⟨['a', 'r', '-', 'M', 'A'], ['D', 'M', 'Y'], false, 6⟩),
   (['a', 'r', '-', 'M', 'R'], ⟨['a', 'r', '-', 'M', 'R'], ['D', 'M', 'Y'], false, 6⟩),
   (['a', 'r', '-', 'O', 'M'], ⟨['a', 'r', '-', 'O', 'M'], ['D', 'M', 'Y'], false, 6⟩),
   (['a', 'r', '-', 'P', 'S'], ⟨['a', 'r', '-', 'P', 'S'], ['D', 'M', 'Y'], false, 6⟩),
   (['a', 'r', '-', 'Q', 'A'], ⟨['a', 'r', '-', 'Q', 'A'], ['D', 'M', 'Y'], false, 6⟩),
   (['a', 'r', '-', 'S', 'A'], ⟨['a', 'r', '-', 'S', 'A'], ['D', 'M', 'Y'], false, 6⟩),
   (['a', 'r', '-', 'S', 'D'], ⟨['a', 'r', '-', 'S', 'D'], ['D', 'M', 'Y'], false, 6⟩),
   (['a', 'r', '-', 'S', 'O'], ⟨['a', 'r', '-', 'S', 'O'], ['D', 'M', 'Y'], false, 6⟩),
   (['a', 'r', '-', 'S', 'S'], ⟨['a', 'r', '-', 'S', 'S'], ['D', 'M', 'Y'], false, 6⟩),
   (['a', 'r', '-', 'S', 'Y'], ⟨['a', 'r', '-', 'S', 'Y'], ['D', 'M', 'Y'], false, 6⟩),
   (['a', 'r', '-', 'T', 'D'], ⟨['a', 'r', '-', 'T', 'D'], ['D', 'M', 'Y'], false, 6⟩),
   (['a', 'r', '-', 'T', 'N'], ⟨['a', 'r', '-', 'T', 'N'], ['D', 'M', 'Y'], false, 6⟩),
   (['a', 'r', '-', 'Y', 'E'], ⟨['a', 'r', '-', 'Y', 'E'], ['D', 'M', 'Y'], false, 6⟩),
   (['a', 's'], ⟨['a', 's'], ['Y', 'M', 'D'], false, 0⟩),
   (['a', 's', 'a'], ⟨['a', 's', 'a'], ['D', 'M', 'Y'], false, 0⟩),
   (['a', 's', 't'], ⟨['a', 's', 't'], ['D', 'M', 'Y'], false, 0⟩),
   (['a', 'z'], ⟨['a', 'z'], ['D', 'M', 'Y'], false, 0⟩),
   (['a', 'z', '-', 'C', 'y', 'r', 'l'], ⟨['a', 'z', '-', 'C', 'y', 'r', 'l'], ['D', 'M', 'Y'], false, 0⟩),
   (['a', 'z', '-', 'L', 'a', 't', 'n'], ⟨['a', 'z', '-', 'L', 'a', 't', 'n'], ['D', 'M', 'Y'], false, 0⟩),
   (['b', 'a', 's'], ⟨['b', 'a', 's'], ['D', 'M', 'Y'], false, 0⟩),
   (['b', 'e'], ⟨['b', 'e'], ['D', 'M', 'Y'], false, 1⟩),
   (['b', 'e', 'm'], ⟨['b', 'e', 'm'], ['D', 'M', 'Y'], false, 0⟩),
   (['b', 'e', 'z'], ⟨['b', 'e', 'z'], ['D', 'M', 'Y'], false, 0⟩),
   (['b', 'g'], ⟨['b', 'g'], ['D', 'M', 'Y', ' ', '\'', 'Г', '\'', '.'], false, 1⟩),
   (['b', 'm'], ⟨['b', 'm'], ['D', 'M', 'Y'], false, 0⟩),
   (['b', 'n'], ⟨['b', 'n'], ['D', 'M', 'Y'], false, 3⟩),
   (['b', 'n', '-', 'I', 'N'], ⟨['b', 'n', '-', 'I', 'N'], ['D', 'M', 'Y'], false, 3⟩),
   (['b', 'o'], ⟨['b', 'o'], ['Y', 'M', 'D'], false, 0⟩),
   (['b', 'o', '-', 'I', 'N'], ⟨['b', 'o', '-', 'I', 'N'], ['Y', 'M', 'D'], false, 0⟩),
   (['b', 'r'], ⟨['b', 'r'], ['Y', 'M', 'D'], false, 0⟩),
   (['b', 'r', 'x'], ⟨['b', 'r', 'x'], ['M', 'D', 'Y'], false, 0⟩),
   (['b', 's'], ⟨['b', 's'], ['D', 'M', 'Y', '.'], false, 0⟩),
   (['b', 's', '-', 'C', 'y', 'r', 'l'], ⟨['b', 's', '-', 'C', 'y', 'r', 'l'], ['D', 'M', 'Y', '.'], false, 0⟩),
   (['b', 's', '-', 'L', 'a', 't', 'n'], ⟨['b', 's', '-', 'L', 'a', 't', 'n'], ['D', 'M', 'Y', '.'], false, 0⟩),
   (['c', 'a'], ⟨['c', 'a'], ['D', 'M', 'Y'], false, 0⟩),
   (['c', 'a', '-', 'A', 'D'], ⟨['c', 'a', '-', 'A', 'D'], ['D', 'M', 'Y'], false, 0⟩),
   (['c', 'a', '-', 'F', 'R'], ⟨['c', 'a', '-', 'F', 'R'], ['D', 'M', 'Y'], false, 0⟩),
   (['c', 'a', '-', 'I', 'T'], ⟨['c', 'a', '-', 'I', 'T'], ['D', 'M', 'Y'], false, 0⟩),
   (['c', 'e'], ⟨['c', 'e'], ['Y', 'M', 'D'], false, 0⟩),
   (['c', 'g', 'g'], ⟨['c', 'g', 'g'], ['D', 'M', 'Y'], false, 0⟩),
   (['c', 'h', 'r'], ⟨['c', 'h', 'r'], ['M', 'D', 'Y'], false, 0⟩),
   (['c', 'k', 'b'], ⟨['c', 'k', 'b'], ['Y', 'M', 'D'], false, 0⟩),
   (['c', 'k', 'b', '-', 'I', 'R'], ⟨['c', 'k', 'b', '-', 'I', 'R'], ['Y', 'M', 'D'], false, 0⟩),
   (['c', 's'], ⟨['c', 's'], ['D', 'M', 'Y'], false, 1⟩),
   (['c', 'y'], ⟨['c', 'y'], ['D', 'M', 'Y'], false, 0⟩),
   (['d', 'a'], ⟨['d', 'a'], ['D', 'M', 'Y'], false, 1⟩),
   (['d', 'a', '-', 'G', 'L'], ⟨['d', 'a', '-', 'G', 'L'], ['D', 'M', 'Y'], false, 1⟩),
   (['d', 'a', 'v'], ⟨['d', 'a', 'v'], ['D', 'M', 'Y'], false, 0⟩),
   (['d', 'e'], ⟨['d', 'e'], ['D', 'M', 'Y'], false, 1⟩),
   (['d', 'e', '-', 'A', 'T'], ⟨['d', 'e', '-', 'A', 'T'], ['D', 'M', 'Y'], false, 1⟩),
   (['d', 'e', '-', 'B', 'E'], ⟨['d', 'e', '-', 'B', 'E'], ['D', 'M', 'Y'], false, 1⟩),
   (['d', 'e', '-', 'C', 'H'], ⟨['d', 'e', '-', 'C', 'H'], ['D', 'M', 'Y'], false, 1⟩),
   (['d', 'e', '-', 'I', 'T'], ⟨['d', 'e', '-', 'I', 'T'], ['D', 'M', 'Y'], false, 1⟩),
   (['d', 'e', '-', 'L', 'I'], ⟨['d', 'e', '-', 'L', 'I'], ['D', 'M', 'Y'], false, 1⟩),
   (['d', 'e', '-', 'L', 'U'], ⟨['d', 'e', '-', 'L', 'U'], ['D', 'M', 'Y'], false, 1⟩),
   (['d', 'j', 'e'], ⟨['d', 'j', 'e'], ['D', 'M', 'Y'], false, 0⟩),
   (['d', 's', 'b'], ⟨['d', 's', 'b'], ['D', 'M', 'Y'], false, 0⟩),
   (['d', 'u', 'a'], ⟨['d', 'u', 'a'], ['D', 'M', 'Y'], false, 0⟩),
   (['d', 'y', 'o'], ⟨['d', 'y', 'o'], ['D', 'M', 'Y'], false, 0⟩),
   (['d', 'z'], ⟨['d', 'z'], ['Y', 'M', 'D'], false, 0⟩),
   (['e', 'b', 'u'], ⟨['e', 'b', 'u'], ['D', 'M', 'Y'], false, 0⟩),
   (['e', 'e'], ⟨['e', 'e'], ['M', 'D', 'Y'], false, 0⟩),
   (['e', 'e', '-', 'T', 'G'], ⟨['e', 'e', '-', 'T', 'G'], ['M', 'D', 'Y'], false, 0⟩),
   (['e', 'l'], ⟨['e', 'l'], ['D', 'M', 'Y'], false, 0⟩),
   (['e', 'l', '-', 'C', 'Y'], ⟨['e', 'l', '-', 'C', 'Y'], ['D', 'M', 'Y'], false, 0⟩),
   (['e', 'n'], ⟨['e', 'n'], ['M', 'D', 'Y'], false, 1⟩),
   (['e', 'n', '-', '0', '0', '1'], ⟨['e', 'n', '-', '0', '0', '1'], ['D', 'M', 'Y'], false, 1⟩),
   (['e', 'n', '-', '1', '5', '0'], ⟨['e', 'n', '-', '1', '5', '0'], ['D', 'M', 'Y'], false, 1⟩),
   (['e', 'n', '-', 'A', 'G'], ⟨['e', 'n', '-', 'A', 'G'], ['D', 'M', 'Y'], false, 1⟩),
   (['e', 'n', '-', 'A', 'I'], ⟨['e', 'n', '-', 'A', 'I'], ['D', 'M', 'Y'], false, 1⟩),
   (['e', 'n', '-', 'A', 'S'], ⟨['e', 'n', '-', 'A', 'S'], ['M', 'D', 'Y'], false, 1⟩),
   (['e', 'n', '-', 'A', 'T'], ⟨['e', 'n', '-', 'A', 'T'], ['D', 'M', 'Y'], false, 1⟩),
   (['e', 'n', '-', 'A', 'U'], ⟨['e', 'n', '-', 'A', 'U'], ['D', 'M', 'Y'], false, 1⟩),
   (['e', 'n', '-', 'B', 'B'], ⟨['e', 'n', '-', 'B', 'B'], ['D', 'M', 'Y'], false, 1⟩),
   (['e', 'n', '-', 'B', 'E'], ⟨['e', 'n', '-', 'B', 'E'], ['D', 'M', 'Y'], false, 1⟩),
   (['e', 'n', '-', 'B', 'I'], ⟨['e', 'n', '-', 'B', 'I'], ['M', 'D', 'Y'], false, 1⟩),
   (['e', 'n', '-', 'B', 'M'], ⟨['e', 'n', '-', 'B', 'M'], ['D', 'M', 'Y'], false, 1⟩),
   (['e', 'n', '-', 'B', 'S'], ⟨['e', 'n', '-', 'B', 'S'], ['D', 'M', 'Y'], false, 1⟩),
   (['e', 'n', '-', 'B', 'W'], ⟨['e', 'n', '-', 'B', 'W'], ['D', 'M', 'Y'], false, 1⟩),
   (['e', 'n', '-', 'B', 'Z'], ⟨['e', 'n', '-', 'B', 'Z'], ['D', 'M', 'Y'], false, 1⟩),
   (['e', 'n', '-', 'C', 'A'], ⟨['e', 'n', '-', 'C', 'A'], ['Y', 'M', 'D'], false, 1⟩),
   (['e', 'n', '-', 'C', 'C'], ⟨['e', 'n', '-', 'C', 'C'], ['D', 'M', 'Y'], false, 1⟩),
   (['e', 'n', '-', 'C', 'H'], ⟨['e', 'n', '-', 'C', 'H'], ['D', 'M', 'Y'], false, 1⟩),
   (['e', 'n', '-', 'C', 'K'], ⟨['e', 'n', '-', 'C', 'K'], ['D', 'M', 'Y'], false, 1⟩),
   (['e', 'n', '-', 'C', 'M'], ⟨['e', 'n', '-', 'C', 'M'], ['D', 'M', 'Y'], false, 1⟩),
   (['e', 'n', '-', 'C', 'X'], ⟨['e', 'n', '-', 'C', 'X'], ['D', 'M', 'Y'], false, 1⟩),
   (['e', 'n', '-', 'C', 'Y'], ⟨['e', 'n', '-', 'C', 'Y'], ['D', 'M', 'Y'], false, 1⟩),
   (['e', 'n', '-', 'D', 'E'], ⟨['e', 'n', '-', 'D', 'E'], ['D', 'M', 'Y'], false, 1⟩),
   (['e', 'n', '-', 'D', 'G'], ⟨['e', 'n', '-', 'D', 'G'], ['D', 'M', 'Y'], false, 1⟩),
   (['e', 'n', '-', 'D', 'K'], ⟨['e', 'n', '-', 'D', 'K'], ['D', 'M', 'Y'], false, 1⟩),
   (['e', 'n', '-', 'D', 'M'], ⟨['e', 'n', '-', 'D', 'M'], ['D', 'M', 'Y'], false, 1⟩),
   (['e', 'n', '-', 'E', 'R'], ⟨['e', 'n', '-', 'E', 'R'], ['D', 'M', 'Y'], false, 1⟩),
   (['e', 'n', '-', 'F', 'I'], ⟨['e', 'n', '-', 'F', 'I'], ['D', 'M', 'Y'], false, 1⟩),
   (['e', 'n', '-', 'F', 'J'], ⟨['e', 'n', '-', 'F', 'J'], ['D', 'M', 'Y'], false, 1⟩),
   (['e', 'n', '-', 'F', 'K'], ⟨['e', 'n', '-', 'F', 'K'], ['D', 'M', 'Y'], false, 1⟩),
   (['e', 'n', '-', 'F', 'M'], ⟨['e', 'n', '-', 'F', 'M'], ['D', 'M', 'Y'], false, 1⟩),
   (['e', 'n', '-', 'G', 'B'], ⟨['e', 'n', '-', 'G', 'B'], ['D', 'M', 'Y'], false, 1⟩),
   (['e', 'n', '-', 'G', 'D'], ⟨['e', 'n', '-', 'G', 'D'], ['D', 'M', 'Y'], false, 1⟩),
   (['e', 'n', '-', 'G', 'G'], ⟨['e', 'n', '-', 'G', 'G'], ['D', 'M', 'Y'], false, 1⟩),
   (['e', 'n', '-', 'G', 'H'], ⟨['e', 'n', '-', 'G', 'H'], ['D', 'M', 'Y'], false, 1⟩),
   (['e', 'n', '-', 'G', 'I'], ⟨['e', 'n', '-', 'G', 'I'], ['D', 'M', 'Y'], false, 1⟩),
   (['e', 'n', '-', 'G', 'M'], ⟨['e', 'n', '-', 'G', 'M'], ['D', 'M', 'Y'], false, 1⟩),
   (['e', 'n', '-', 'G', 'U'], ⟨['e', 'n', '-', 'G', 'U'], ['M', 'D', 'Y'], false, 1⟩),
   (['e', 'n', '-', 'G', 'Y'], ⟨['e', 'n', '-', 'G', 'Y'], ['D', 'M', 'Y'], false, 1⟩),
   (['e', 'n', '-', 'H', 'K'], ⟨['e', 'n', '-', 'H', 'K'], ['D', 'M', 'Y'], false, 1⟩),
   (['e', 'n', '-', 'I', 'E'], ⟨['e', 'n', '-', 'I', 'E'], ['D', 'M', 'Y'], false, 1⟩),
   (['e', 'n', '-', 'I', 'L'], ⟨['e', 'n', '-', 'I', 'L'], ['D', 'M', 'Y'], false, 1⟩),
   (['e', 'n', '-', 'I', 'M'], ⟨['e', 'n', '-', 'I', 'M'], ['D', 'M', 'Y'], false, 1⟩),
   (['e', 'n', '-', 'I', 'N'], ⟨['e', 'n', '-', 'I', 'N'], ['D', 'M', 'Y'], false, 1⟩),
   (['e', 'n', '-', 'I', 'O'], ⟨['e', 'n', '-', 'I', 'O'], ['D', 'M', 'Y'], false, 1⟩),
   (['e', 'n', '-', 'J', 'E'], ⟨['e', 'n', '-', 'J', 'E'], ['D', 'M', 'Y'], false, 1⟩),
   (['e', 'n', '-', 'J', 'M'], ⟨['e', 'n', '-', 'J', 'M'], ['D', 'M', 'Y'], false, 1⟩),
   (['e', 'n', '-', 'K', 'E'], ⟨['e', 'n', '-', 'K', 'E'], ['D', 'M', 'Y'], false, 1⟩),
   (['e', 'n', '-', 'K', 'I'], ⟨['e', 'n', '-', 'K', 'I'], ['D', 'M', 'Y'], false, 1⟩),
   (['e', 'n', '-', 'K', 'N'], ⟨['e', 'n', '-', 'K', 'N'], ['D', 'M', 'Y'], false, 1⟩),
   (['e', 'n', '-', 'K', 'Y'], ⟨['e', 'n', '-', 'K', 'Y'], ['D', 'M', 'Y'], false, 1⟩),
   (['e', 'n', '-', 'L', 'C'], ⟨['e', 'n', '-', 'L', 'C'], ['D', 'M', 'Y'], false, 1⟩),
   (['e', 'n', '-', 'L', 'R'], ⟨['e', 'n', '-', 'L', 'R'], ['D', 'M', 'Y'], false, 1⟩),
   (['e', 'n', '-', 'L', 'S'], ⟨['e', 'n', '-', 'L', 'S'], ['D', 'M', 'Y'], false, 1⟩),
   (['e', 'n', '-', 'M', 'G'], ⟨['e', 'n', '-', 'M', 'G'], ['D', 'M', 'Y'], false, 1⟩),
   (['e', 'n', '-', 'M', 'H'], ⟨['e', 'n', '-', 'M', 'H'], ['M', 'D', 'Y'], false, 1⟩),
   (['e', 'n', '-', 'M', 'O'], ⟨['e', 'n', '-', 'M', 'O'], ['D', 'M', 'Y'], false, 1⟩),
   (['e', 'n', '-', 'M', 'P'], ⟨['e', 'n', '-', 'M', 'P'], ['M', 'D', 'Y'], false, 1⟩),
   (['e', 'n', '-', 'M', 'S'], ⟨['e', 'n', '-', 'M', 'S'], ['D', 'M', 'Y'], false, 1⟩),
   (['e', 'n', '-', 'M', 'T'], ⟨['e', 'n', '-', 'M', 'T'], ['D', 'M', 'Y'], false, 1⟩),
   (['e', 'n', '-', 'M', 'U'], ⟨['e', 'n', '-', 'M', 'U'], ['D', 'M', 'Y'], false, 1⟩),
   (['e', 'n', '-', 'M', 'W'], ⟨['e', 'n', '-', 'M', 'W'], ['D', 'M', 'Y'], false, 1⟩),
   (['e', 'n', '-', 'M', 'Y'], ⟨['e', 'n', '-', 'M', 'Y'], ['D', 'M', 'Y'], false, 1⟩),
   (['e', 'n', '-', 'N', 'A'], ⟨['e', 'n', '-', 'N', 'A'], ['D', 'M', 'Y'], false, 1⟩),
   (['e', 'n', '-', 'N', 'F'], ⟨['e', 'n', '-', 'N', 'F'], ['D', 'M', 'Y'], false, 1⟩),
   (['e', 'n', '-', 'N', 'G'], ⟨['e', 'n', '-', 'N', 'G'], ['D', 'M', 'Y'], false, 1⟩),
   (['e', 'n', '-', 'N', 'L'], ⟨['e', 'n', '-', 'N', 'L'], ['D', 'M', 'Y'], false, 1⟩),
   (['e', 'n', '-', 'N', 'R'], ⟨['e', 'n', '-', 'N', 'R'], ['D', 'M', 'Y'], false, 1⟩),
   (['e', 'n', '-', 'N', 'U'], ⟨['e', 'n', '-', 'N', 'U'], ['D', 'M', 'Y'], false, 1⟩),
   (['e', 'n', '-', 'N', 'Z'], ⟨['e', 'n', '-', 'N', 'Z'], ['D', 'M', 'Y'], false, 1⟩),
   (['e', 'n', '-', 'P', 'G'], ⟨['e', 'n', '-', 'P', 'G'], ['D', 'M', 'Y'], false, 1⟩),
   (['e', 'n', '-', 'P', 'H'], ⟨['e', 'n', '-', 'P', 'H'], ['D', 'M', 'Y'], false, 1⟩),
   (['e', 'n', '-', 'P', 'K'], ⟨['e', 'n', '-', 'P', 'K'], ['D', 'M', 'Y'], false, 1⟩),
   (['e', 'n', '-', 'P', 'N'], ⟨['e', 'n', '-', 'P', 'N'], ['D', 'M', 'Y'], false, 1⟩),
   (['e', 'n', '-', 'P', 'R'], ⟨['e', 'n', '-', 'P', 'R'], ['M', 'D', 'Y'], false, 1⟩),
   (['e', 'n', '-', 'P', 'W'], ⟨['e', 'n', '-', 'P', 'W'], ['D', 'M', 'Y'], false, 1⟩),
   (['e', 'n', '-', 'R', 'W'], ⟨['e', 'n', '-', 'R', 'W'], ['D', 'M', 'Y'], false, 1⟩),
   (['e', 'n', '-', 'S', 'B'], ⟨['e', 'n', '-', 'S', 'B'], ['D', 'M', 'Y'], false, 1⟩),
   (['e', 'n', '-', 'S', 'C'], ⟨['e', 'n', '-', 'S', 'C'], ['D', 'M', 'Y'], false, 1⟩),
   (['e', 'n', '-', 'S', 'D'], ⟨['e', 'n', '-', 'S', 'D'], ['D', 'M', 'Y'], false, 1⟩),
   (['e', 'n', '-', 'S', 'E'], ⟨['e', 'n', '-', 'S', 'E'], ['Y', 'M', 'D'], false, 1⟩),
   (['e', 'n', '-', 'S', 'G'], ⟨['e', 'n', '-', 'S', 'G'], ['D', 'M', 'Y'], false, 1⟩),
   (['e', 'n', '-', 'S', 'H'], ⟨['e', 'n', '-', 'S', 'H'], ['D', 'M', 'Y'], false, 1⟩),
   (['e', 'n', '-', 'S', 'I'], ⟨['e', 'n', '-', 'S', 'I'], ['D', 'M', 'Y'], false, 1⟩),
   (['e', 'n', '-', 'S', 'L'], ⟨['e', 'n', '-', 'S', 'L'], ['D', 'M', 'Y'], false, 1⟩),
   (['e', 'n', '-', 'S', 'S'], ⟨['e', 'n', '-', 'S', 'S'], ['D', 'M', 'Y'], false, 1⟩),
   (['e', 'n', '-', 'S', 'X'], ⟨['e', 'n', '-', 'S', 'X'], ['D', 'M', 'Y'], false, 1⟩),
   (['e', 'n', '-', 'S', 'Z'], ⟨['e', 'n', '-', 'S', 'Z'], ['D', 'M', 'Y'], false, 1⟩),
   (['e', 'n', '-', 'T', 'C'], ⟨['e', 'n', '-', 'T', 'C'], ['D', 'M', 'Y'], false, 1⟩),
   (['e', 'n', '-', 'T', 'K'], ⟨['e', 'n', '-', 'T', 'K'], ['D', 'M', 'Y'], false, 1⟩),
   (['e', 'n', '-', 'T', 'O'], ⟨['e', 'n', '-', 'T', 'O'], ['D', 'M', 'Y'], false, 1⟩),
   (['e', 'n', '-', 'T', 'T'], ⟨['e', 'n', '-', 'T', 'T'], ['D', 'M', 'Y'], false, 1⟩),
   (['e', 'n', '-', 'T', 'V'], ⟨['e', 'n', '-', 'T', 'V'], ['D', 'M', 'Y'], false, 1⟩),
   (['e', 'n', '-', 'T', 'Z'], ⟨['e', 'n', '-', 'T', 'Z'], ['D', 'M', 'Y'], false, 1⟩),
   (['e', 'n', '-', 'U', 'G'], ⟨['e', 'n', '-', 'U', 'G'], ['D', 'M', 'Y'], false, 1⟩),
   (['e', 'n', '-', 'U', 'M'], ⟨['e', 'n', '-', 'U', 'M'], ['M', 'D', 'Y'], false, 1⟩),
   (['e', 'n', '-', 'V', 'C'], ⟨['e', 'n', '-', 'V', 'C'], ['D', 'M', 'Y'], false, 1⟩),
   (['e', 'n', '-', 'V', 'G'], ⟨['e', 'n', '-', 'V', 'G'], ['D', 'M', 'Y'], false, 1⟩),
   (['e', 'n', '-', 'V', 'I'], ⟨['e', 'n', '-', 'V', 'I'], ['M', 'D', 'Y'], false, 1⟩),
   (['e', 'n', '-', 'V', 'U'], ⟨['e', 'n', '-', 'V', 'U'], ['D', 'M', 'Y'], false, 1⟩),
   (['e', 'n', '-', 'W', 'S'], ⟨['e', 'n', '-', 'W', 'S'], ['D', 'M', 'Y'], false, 1⟩),
   (['e', 'n', '-', 'Z', 'A'], ⟨['e', 'n', '-', 'Z', 'A'], ['Y', 'M', 'D'], false, 1⟩),
   (['e', 'n', '-', 'Z', 'M'], ⟨['e', 'n', '-', 'Z', 'M'], ['D', 'M', 'Y'], false, 1⟩),
   (['e', 'n', '-', 'Z', 'W'], ⟨['e', 'n', '-', 'Z', 'W'], ['D', 'M', 'Y'], false, 1⟩),
   (['e', 'o'], ⟨['e', 'o'], ['Y', 'M', 'D'], false, 0⟩),
   (['e', 's'], ⟨['e', 's'], ['D', 'M', 'Y'], false, 2⟩),
   (['e', 's', '-', '4', '1', '9'], ⟨['e', 's', '-', '4', '1', '9'], ['D', 'M', 'Y'], false, 2⟩),
   (['e', 's', '-', 'A', 'R'], ⟨['e', 's', '-', 'A', 'R'], ['D', 'M', 'Y'], false, 2⟩),
   (['e', 's', '-', 'B', 'O'], ⟨['e', 's', '-', 'B', 'O'], ['D', 'M', 'Y'], false, 2⟩),
   (['e', 's', '-', 'B', 'R'], ⟨['e', 's', '-', 'B', 'R'], ['D', 'M', 'Y'], false, 2⟩),
   (['e', 's', '-', 'B', 'Z'], ⟨['e', 's', '-', 'B', 'Z'], ['D', 'M', 'Y'], false, 2⟩),
   (['e', 's', '-', 'C', 'L'], ⟨['e', 's', '-', 'C', 'L'], ['D', 'M', 'Y'], false, 2⟩),
   (['e', 's', '-', 'C', 'O'], ⟨['e', 's', '-', 'C', 'O'], ['D', 'M', 'Y'], false, 2⟩),
   (['e', 's', '-', 'C', 'R'], ⟨['e', 's', '-', 'C', 'R'], ['D', 'M', 'Y'], false, 2⟩),
   (['e', 's', '-', 'C', 'U'], ⟨['e', 's', '-', 'C', 'U'], ['D', 'M', 'Y'], false, 2⟩),
   (['e', 's', '-', 'D', 'O'], ⟨['e', 's', '-', 'D', 'O'], ['D', 'M', 'Y'], false, 2⟩),
   (['e', 's', '-', 'E', 'A'], ⟨['e', 's', '-', 'E', 'A'], ['D', 'M', 'Y'], false, 2⟩),
   (['e', 's', '-', 'E', 'C'], ⟨['e', 's', '-', 'E', 'C'], ['D', 'M', 'Y'], false, 2⟩),
   (['e', 's', '-', 'G', 'Q'], ⟨['e', 's', '-', 'G', 'Q'], ['D', 'M', 'Y'], false, 2⟩),
   (['e', 's', '-', 'G', 'T'], ⟨['e', 's', '-', 'G', 'T'], ['D', 'M', 'Y'], false, 2⟩),
   (['e', 's', '-', 'H', 'N'], ⟨['e', 's', '-', 'H', 'N'], ['D', 'M', 'Y'], false, 2⟩),
   (['e', 's', '-', 'I', 'C'], ⟨['e', 's', '-', 'I', 'C'], ['D', 'M', 'Y'], false, 2⟩),
   (['e', 's', '-', 'M', 'X'], ⟨['e', 's', '-', 'M', 'X'], ['D', 'M', 'Y'], false, 2⟩),
   (['e', 's', '-', 'N', 'I'], ⟨['e', 's', '-', 'N', 'I'], ['D', 'M', 'Y'], false, 2⟩),
   (['e', 's', '-', 'P', 'A'], ⟨['e', 's', '-', 'P', 'A'], ['M', 'D', 'Y'], false, 2⟩),
   (['e', 's', '-', 'P', 'E'], ⟨['e', 's', '-', 'P', 'E'], ['D', 'M', 'Y'], false, 2⟩),
   (['e', 's', '-', 'P', 'H'], ⟨['e', 's', '-', 'P', 'H'], ['D', 'M', 'Y'], false, 2⟩),
   (['e', 's', '-', 'P', 'R'], ⟨['e', 's', '-', 'P', 'R'], ['M', 'D', 'Y'], false, 2⟩),
   (['e', 's', '-', 'P', 'Y'], ⟨['e', 's', '-', 'P', 'Y'], ['D', 'M', 'Y'], false, 2⟩),
   (['e', 's', '-', 'S', 'V'], ⟨['e', 's', '-', 'S', 'V'], ['D', 'M', 'Y'], false, 2⟩),
   (['e', 's', '-', 'U', 'S'], ⟨['e', 's', '-', 'U', 'S'], ['D', 'M', 'Y'], false, 2⟩),
   (['e', 's', '-', 'U', 'Y'], ⟨['e', 's', '-', 'U', 'Y'], ['D', 'M', 'Y'], false, 2⟩),
   (['e', 's', '-', 'V', 'E'], ⟨['e', 's', '-', 'V', 'E'], ['D', 'M', 'Y'], false, 2⟩),
   (['e', 't'], ⟨['e', 't'], ['D', 'M', 'Y'], false, 0⟩),
   (['e', 'u'], ⟨['e', 'u'], ['Y', 'M', 'D'], false, 0⟩),
   (['e', 'w', 'o'], ⟨['e', 'w', 'o'], ['D', 'M', 'Y'], false, 0⟩),
   (['f', 'a'], ⟨['f', 'a'], ['Y', 'M', 'D'], false, 6⟩),
   (['f', 'a', '-', 'A', 'F'], ⟨['f', 'a', '-', 'A', 'F'], ['Y', 'M', 'D'], false, 6⟩),
   (['f', 'f'], ⟨['f', 'f'], ['D', 'M', 'Y'], false, 0⟩),
   (['f', 'f', '-', 'C', 'M'], ⟨['f', 'f', '-', 'C', 'M'], ['D', 'M', 'Y'], false, 0⟩),
   (['f', 'f', '-', 'G', 'N'], ⟨['f', 'f', '-', 'G', 'N'], ['D', 'M', 'Y'], false, 0⟩),
   (['f', 'f', '-', 'M', 'R'], ⟨['f', 'f', '-', 'M', 'R'], ['D', 'M', 'Y'], false, 0⟩),
   (['f', 'i'], ⟨['f', 'i'], ['D', 'M', 'Y'], false, 1⟩),
   (['f', 'i', 'l'], ⟨['f', 'i', 'l'], ['M', 'D', 'Y'], false, 0⟩),
   (['f', 'o'], ⟨['f', 'o'], ['D', 'M', 'Y'], false, 0⟩),
   (['f', 'o', '-', 'D', 'K'], ⟨['f', 'o', '-', 'D', 'K'], ['D', 'M', 'Y'], false, 0⟩),
   (['f', 'r'], ⟨['f', 'r'], ['D', 'M', 'Y'], false, 1⟩),
   (['f', 'r', '-', 'B', 'E'], ⟨['f', 'r', '-', 'B', 'E'], ['D', 'M', 'Y'], false, 1⟩),
   (['f', 'r', '-', 'B', 'F'], ⟨['f', 'r', '-', 'B', 'F'], ['D', 'M', 'Y'], false, 1⟩),
   (['f', 'r', '-', 'B', 'I'], ⟨['f', 'r', '-', 'B', 'I'], ['D', 'M', 'Y'], false, 1⟩),
   (['f', 'r', '-', 'B', 'J'], ⟨['f', 'r', '-', 'B', 'J'], ['D', 'M', 'Y'], false, 1⟩),
   (['f', 'r', '-', 'B', 'L'], ⟨['f', 'r', '-', 'B', 'L'], ['D', 'M', 'Y'], false, 1⟩),
   (['f', 'r', '-', 'C', 'A'], ⟨['f', 'r', '-', 'C', 'A'], ['Y', 'M', 'D'], false, 1⟩),
   (['f', 'r', '-', 'C', 'D'], ⟨['f', 'r', '-', 'C', 'D'], ['D', 'M', 'Y'], false, 1⟩),
   (['f', 'r', '-', 'C', 'F'], ⟨['f', 'r', '-', 'C', 'F'], ['D', 'M', 'Y'], false, 1⟩),
   (['f', 'r', '-', 'C', 'G'], ⟨['f', 'r', '-', 'C', 'G'], ['D', 'M', 'Y'], false, 1⟩),
   (['f', 'r', '-', 'C', 'H'], ⟨['f', 'r', '-', 'C', 'H'], ['D', 'M', 'Y'], false, 1⟩),
   (['f', 'r', '-', 'C', 'I'], ⟨['f', 'r', '-', 'C', 'I'], ['D', 'M', 'Y'], false, 1⟩),
   (['f', 'r', '-', 'C', 'M'], ⟨['f', 'r', '-', 'C', 'M'], ['D', 'M', 'Y'], false, 1⟩),
   (['f', 'r', '-', 'D', 'J'], ⟨['f', 'r', '-', 'D', 'J'], ['D', 'M', 'Y'], false, 1⟩),
   (['f', 'r', '-', 'D', 'Z'], ⟨['f', 'r', '-', 'D', 'Z'], ['D', 'M', 'Y'], false, 1⟩),
   (['f', 'r', '-', 'G', 'A'], ⟨['f', 'r', '-', 'G', 'A'], ['D', 'M', 'Y'], false, 1⟩),
   (['f', 'r', '-', 'G', 'F'], ⟨['f', 'r', '-', 'G', 'F'], ['D', 'M', 'Y'], false, 1⟩),
   (['f', 'r', '-', 'G', 'N'], ⟨['f', 'r', '-', 'G', 'N'], ['D', 'M', 'Y'], false, 1⟩),
   (['f', 'r', '-', 'G', 'P'], ⟨['f', 'r', '-', 'G', 'P'], ['D', 'M', 'Y'], false, 1⟩),
   (['f', 'r', '-', 'G', 'Q'], ⟨['f', 'r', '-', 'G', 'Q'], ['D', 'M', 'Y'], false, 1⟩),
   (['f', 'r', '-', 'H', 'T'], ⟨['f', 'r', '-', 'H', 'T'], ['D', 'M', 'Y'], false, 1⟩),
   (['f', 'r', '-', 'K', 'M'], ⟨['f', 'r', '-', 'K', 'M'], ['D', 'M', 'Y'], false, 1⟩),
   (['f', 'r', '-', 'L', 'U'], ⟨['f', 'r', '-', 'L', 'U'], ['D', 'M', 'Y'], false, 1⟩),
   (['f', 'r', '-', 'M', 'A'], ⟨['f', 'r', '-', 'M', 'A'], ['D', 'M', 'Y'], false, 1⟩),
   (['f', 'r', '-', 'M', 'C'], ⟨['f', 'r', '-', 'M', 'C'], ['D', 'M', 'Y'], false, 1⟩),
   (['f', 'r', '-', 'M', 'F'], ⟨['f', 'r', '-', 'M', 'F'], ['D', 'M', 'Y'], false, 1⟩),
   (['f', 'r', '-', 'M', 'G'], ⟨['f', 'r', '-', 'M', 'G'], ['D', 'M', 'Y'], false, 1⟩),
   (['f', 'r', '-', 'M', 'L'], ⟨['f', 'r', '-', 'M', 'L'], ['D', 'M', 'Y'], false, 1⟩),
   (['f', 'r', '-', 'M', 'Q'], ⟨['f', 'r', '-', 'M', 'Q'], ['D', 'M', 'Y'], false, 1⟩),
   (['f', 'r', '-', 'M', 'R'], ⟨['f', 'r', '-', 'M', 'R'], ['D', 'M', 'Y'], false, 1⟩),
   (['f', 'r', '-', 'M', 'U'], ⟨['f', 'r', '-', 'M', 'U'], ['D', 'M', 'Y'], false, 1⟩),
   (['f', 'r', '-', 'N', 'C'], ⟨['f', 'r', '-', 'N', 'C'], ['D', 'M', 'Y'], false, 1⟩),
   (['f', 'r', '-', 'N', 'E'], ⟨['f', 'r', '-', 'N', 'E'], ['D', 'M', 'Y'], false, 1⟩),
   (['f', 'r', '-', 'P', 'F'], ⟨['f', 'r', '-', 'P', 'F'], ['D', 'M', 'Y'], false, 1⟩),
   (['f', 'r', '-', 'P', 'M'], ⟨['f', 'r', '-', 'P', 'M'], ['D', 'M', 'Y'], false, 1⟩),
   (['f', 'r', '-', 'R', 'E'], ⟨['f', 'r', '-', 'R', 'E'], ['D', 'M', 'Y'], false, 1⟩),
   (['f', 'r', '-', 'R', 'W'], ⟨['f', 'r', '-', 'R', 'W'], ['D', 'M', 'Y'], false, 1⟩),
   (['f', 'r', '-', 'S', 'C'], ⟨['f', 'r', '-', 'S', 'C'], ['D', 'M', 'Y'], false, 1⟩),
   (['f', 'r', '-', 'S', 'N'], ⟨['f', 'r', '-', 'S', 'N'], ['D', 'M', 'Y'], false, 1⟩),
   (['f', 'r', '-', 'S', 'Y'], ⟨['f', 'r', '-', 'S', 'Y'], ['D', 'M', 'Y'], false, 1⟩),
   (['f', 'r', '-', 'T', 'D'], ⟨['f', 'r', '-', 'T', 'D'], ['D', 'M', 'Y'], false, 1⟩),
   (['f', 'r', '-', 'T', 'G'], ⟨['f', 'r', '-', 'T', 'G'], ['D', 'M', 'Y'], false, 1⟩),
   (['f', 'r', '-', 'T', 'N'], ⟨['f', 'r', '-', 'T', 'N'], ['D', 'M', 'Y'], false, 1⟩),
   (['f', 'r', '-', 'V', 'U'], ⟨['f', 'r', '-', 'V', 'U'], ['D', 'M', 'Y'], false, 1⟩),
   (['f', 'r', '-', 'W', 'F'], ⟨['f', 'r', '-', 'W', 'F'], ['D', 'M', 'Y'], false, 1⟩),
   (['f', 'r', '-', 'Y', 'T'], ⟨['f', 'r', '-', 'Y', 'T'], ['D', 'M', 'Y'], false, 1⟩),
   (['f', 'u', 'r'], ⟨['f', 'u', 'r'], ['D', 'M', 'Y'], false, 0⟩),
   (['f', 'y'], ⟨['f', 'y'], ['D', 'M', 'Y'], false, 0⟩),
   (['g', 'a'], ⟨['g', 'a'], ['D', 'M', 'Y'], false, 0⟩),
   (['g', 'd'], ⟨['g', 'd'], ['D', 'M', 'Y'], false, 0⟩),
   (['g', 'l'], ⟨['g', 'l'], ['D', 'M', 'Y'], false, 0⟩),
   (['g', 's', 'w'], ⟨['g', 's', 'w'], ['D', 'M', 'Y'], false, 0⟩),
   (['g', 's', 'w', '-', 'F', 'R'], ⟨['g', 's', 'w', '-', 'F', 'R'], ['D', 'M', 'Y'], false, 0⟩),
   (['g', 's', 'w', '-', 'L', 'I'], ⟨['g', 's', 'w', '-', 'L', 'I'], ['D', 'M', 'Y'], false, 0⟩),
   (['g', 'u'], ⟨['g', 'u'], ['D', 'M', 'Y'], false, 0⟩),
   (['g', 'u', 'z'], ⟨['g', 'u', 'z'], ['D', 'M', 'Y'], false, 0⟩),
   (['g', 'v'], ⟨['g', 'v'], ['Y', 'M', 'D'], false, 0⟩),
   (['h', 'a'], ⟨['h', 'a'], ['D', 'M', 'Y'], false, 0⟩),
   (['h', 'a', '-', 'G', 'H'], ⟨['h', 'a', '-', 'G', 'H'], ['D', 'M', 'Y'], false, 0⟩),
   (['h', 'a', '-', 'N', 'E'], ⟨['h', 'a', '-', 'N', 'E'], ['D', 'M', 'Y'], false, 0⟩),
   (['h', 'a', 'w'], ⟨['h', 'a', 'w'], ['D', 'M', 'Y'], false, 0⟩),
   (['h', 'e'], ⟨['h', 'e'], ['D', 'M', 'Y'], false, 1⟩),
   (['h', 'i'], ⟨['h', 'i'], ['D', 'M', 'Y'], false, 3⟩),
   (['h', 'r'], ⟨['h', 'r'], ['D', 'M', 'Y', '.'], false, 0⟩),
   (['h', 'r', '-', 'B', 'A'], ⟨['h', 'r', '-', 'B', 'A'], ['D', 'M', 'Y', '.'], false, 0⟩),
   (['h', 's', 'b'], ⟨['h', 's', 'b'], ['D', 'M', 'Y'], false, 0⟩),
   (['h', 'u'], ⟨['h', 'u'], ['Y', 'M', 'D', '.'], false, 1⟩),
   (['h', 'y'], ⟨['h', 'y'], ['D', 'M', 'Y'], false, 0⟩),
   (['i', 'd'], ⟨['i', 'd'], ['D', 'M', 'Y'], false, 1⟩),
   (['i', 'g'], ⟨['i', 'g'], ['D', 'M', 'Y'], false, 0⟩),
   (['i', 'i'], ⟨['i', 'i'], ['Y', 'M', 'D'], false, 0⟩),
   (['i', 's'], ⟨['i', 's'], ['D', 'M', 'Y'], false, 0⟩),
   (['i', 't'], ⟨['i', 't'], ['D', 'M', 'Y'], false, 1⟩),
   (['i', 't', '-', 'C', 'H'], ⟨['i', 't', '-', 'C', 'H'], ['D', 'M', 'Y'], false, 1⟩),
   (['i', 't', '-', 'S', 'M'], ⟨['i', 't', '-', 'S', 'M'], ['D', 'M', 'Y'], false, 1⟩),
   (['i', 't', '-', 'V', 'A'], ⟨['i', 't', '-', 'V', 'A'], ['D', 'M', 'Y'], false, 1⟩),
   (['j', 'a'], ⟨['j', 'a'], ['Y', 'M', 'D'], true, 4⟩),
   (['j', 'g', 'o'], ⟨['j', 'g', 'o'], ['Y', 'M', 'D'], false, 0⟩),
   (['j', 'm', 'c'], ⟨['j', 'm', 'c'], ['D', 'M', 'Y'], false, 0⟩),
   (['k', 'a'], ⟨['k', 'a'], ['D', 'M', 'Y'], false, 1⟩),
   (['k', 'a', 'b'], ⟨['k', 'a', 'b'], ['D', 'M', 'Y'], false, 0⟩),
   (['k', 'a', 'm'], ⟨['k', 'a', 'm'], ['D', 'M', 'Y'], false, 0⟩),
   (['k', 'd', 'e'], ⟨['k', 'd', 'e'], ['D', 'M', 'Y'], false, 0⟩),
   (['k', 'e', 'a'], ⟨['k', 'e', 'a'], ['D', 'M', 'Y'], false, 0⟩),
   (['k', 'h', 'q'], ⟨['k', 'h', 'q'], ['D', 'M', 'Y'], false, 0⟩),
   (['k', 'i'], ⟨['k', 'i'], ['D', 'M', 'Y'], false, 0⟩),
   (['k', 'k'], ⟨['k', 'k'], ['D', 'M', 'Y'], false, 0⟩),
   (['k', 'l'], ⟨['k', 'l'], ['Y', 'M', 'D'], false, 0⟩),
   (['k', 'l', 'n'], ⟨['k', 'l', 'n'], ['D', 'M', 'Y'], false, 0⟩),
   (['k', 'm'], ⟨['k', 'm'], ['D', 'M', 'Y'], false, 0⟩),
   (['k', 'n'], ⟨['k', 'n'], ['D', 'M', 'Y'], false, 0⟩),
   (['k', 'o'], ⟨['k', 'o'], ['Y', 'M', 'D', '.'], false, 0⟩),
   (['k', 'o', '-', 'K', 'P'], ⟨['k', 'o', '-', 'K', 'P'], ['Y', 'M', 'D', '.'], false, 0⟩),
   (['k', 'o', 'k'], ⟨['k', 'o', 'k'], ['Y', 'M', 'D'], false, 0⟩),
   (['k', 's'], ⟨['k', 's'], ['M', 'D', 'Y'], false, 0⟩),
   (['k', 's', 'b'], ⟨['k', 's', 'b'], ['D', 'M', 'Y'], false, 0⟩),
   (['k', 's', 'f'], ⟨['k', 's', 'f'], ['D', 'M', 'Y'], false, 0⟩),
   (['k', 's', 'h'], ⟨['k', 's', 'h'], ['D', 'M', 'Y'], false, 0⟩),
   (['k', 'w'], ⟨['k', 'w'], ['Y', 'M', 'D'], false, 0⟩),
   (['k', 'y'], ⟨['k', 'y'], ['D', 'M', 'Y'], false, 0⟩),
   (['l', 'a', 'g'], ⟨['l', 'a', 'g'], ['D', 'M', 'Y'], false, 0⟩),
   (['l', 'b'], ⟨['l', 'b'], ['D', 'M', 'Y'], false, 0⟩),
   (['l', 'g'], ⟨['l', 'g'], ['D', 'M', 'Y'], false, 0⟩),
   (['l', 'k', 't'], ⟨['l', 'k', 't'], ['Y', 'M', 'D'], false, 0⟩),
   (['l', 'n'], ⟨['l', 'n'], ['D', 'M', 'Y'], false, 0⟩),
   (['l', 'n', '-', 'A', 'O'], ⟨['l', 'n', '-', 'A', 'O'], ['D', 'M', 'Y'], false, 0⟩),
   (['l', 'n', '-', 'C', 'F'], ⟨['l', 'n', '-', 'C', 'F'], ['D', 'M', 'Y'], false, 0⟩),
   (['l', 'n', '-', 'C', 'G'], ⟨['l', 'n', '-', 'C', 'G'], ['D', 'M', 'Y'], false, 0⟩),
   (['l', 'o'], ⟨['l', 'o'], ['D', 'M', 'Y'], false, 0⟩),
   (['l', 'r', 'c'], ⟨['l', 'r', 'c'], ['Y', 'M', 'D'], false, 0⟩),
   (['l', 'r', 'c', '-', 'I', 'Q'], ⟨['l', 'r', 'c', '-', 'I', 'Q'], ['Y', 'M', 'D'], false, 0⟩),
   (['l', 't'], ⟨['l', 't'], ['Y', 'M', 'D'], false, 0⟩),
   (['l', 'u'], ⟨['l', 'u'], ['D', 'M', 'Y'], false, 0⟩),
   (['l', 'u', 'o'], ⟨['l', 'u', 'o'], ['D', 'M', 'Y'], false, 0⟩),
   (['l', 'u', 'y'], ⟨['l', 'u', 'y'], ['D', 'M', 'Y'], false, 0⟩),
   (['l', 'v'], ⟨['l', 'v'], ['D', 'M', 'Y'], false, 0⟩),
   (['m', 'a', 's'], ⟨['m', 'a', 's'], ['D', 'M', 'Y'], false, 0⟩),
   (['m', 'a', 's', '-', 'T', 'Z'], ⟨['m', 'a', 's', '-', 'T', 'Z'], ['D', 'M', 'Y'], false, 0⟩),
   (['m', 'e', 'r'], ⟨['m', 'e', 'r'], ['D', 'M', 'Y'], false, 0⟩),
   (['m', 'f', 'e'], ⟨['m', 'f', 'e'], ['D', 'M', 'Y'], false, 0⟩),
   (['m', 'g'], ⟨['m', 'g'], ['Y', 'M', 'D'], false, 0⟩),
   (['m', 'g', 'h'], ⟨['m', 'g', 'h'], ['D', 'M', 'Y'], false, 0⟩),
   (['m', 'g', 'o'], ⟨['m', 'g', 'o'], ['Y', 'M', 'D'], false, 0⟩),
   (['m', 'k'], ⟨['m', 'k'], ['D', 'M', 'Y'], false, 0⟩),
   (['m', 'l'], ⟨['m', 'l'], ['D', 'M', 'Y'], false, 0⟩),
   (['m', 'n'], ⟨['m', 'n'], ['Y', 'M', 'D'], false, 0⟩),
   (['m', 'r'], ⟨['m', 'r'], ['D', 'M', 'Y'], false, 0⟩),
   (['m', 's'], ⟨['m', 's'], ['D', 'M', 'Y'], false, 0⟩),
   (['m', 's', '-', 'B', 'N'], ⟨['m', 's', '-', 'B', 'N'], ['D', 'M', 'Y'], false, 0⟩),
   (['m', 's', '-', 'S', 'G'], ⟨['m', 's', '-', 'S', 'G'], ['D', 'M', 'Y'], false, 0⟩),
   (['m', 't'], ⟨['m', 't'], ['D', 'M', 'Y'], false, 0⟩),
   (['m', 'u', 'a'], ⟨['m', 'u', 'a'], ['D', 'M', 'Y'], false, 0⟩),
   (['m', 'y'], ⟨['m', 'y'], ['D', 'M', 'Y'], false, 0⟩),
   (['m', 'z', 'n'], ⟨['m', 'z', 'n'], ['Y', 'M', 'D'], false, 0⟩),
   (['n', 'a', 'q'], ⟨['n', 'a', 'q'], ['D', 'M', 'Y'], false, 0⟩),
   (['n', 'b'], ⟨['n', 'b'], ['D', 'M', 'Y'], false, 0⟩),
   (['n', 'b', '-', 'S', 'J'], ⟨['n', 'b', '-', 'S', 'J'], ['D', 'M', 'Y'], false, 0⟩),
   (['n', 'd'], ⟨['n', 'd'], ['D', 'M', 'Y'], false, 0⟩),
   (['n', 'e'], ⟨['n', 'e'], ['Y', 'M', 'D'], false, 0⟩),
   (['n', 'e', '-', 'I', 'N'], ⟨['n', 'e', '-', 'I', 'N'], ['Y', 'M', 'D'], false, 0⟩),
   (['n', 'l'], ⟨['n', 'l'], ['D', 'M', 'Y'], false, 1⟩),
   (['n', 'l', '-', 'A', 'W'], ⟨['n', 'l', '-', 'A', 'W'], ['D', 'M', 'Y'], false, 1⟩),
   (['n', 'l', '-', 'B', 'E'], ⟨['n', 'l', '-', 'B', 'E'], ['D', 'M', 'Y'], false, 1⟩),
   (['n', 'l', '-', 'B', 'Q'], ⟨['n', 'l', '-', 'B', 'Q'], ['D', 'M', 'Y'], false, 1⟩),
   (['n', 'l', '-', 'C', 'W'], ⟨['n', 'l', '-', 'C', 'W'], ['D', 'M', 'Y'], false, 1⟩),
   (['n', 'l', '-', 'S', 'R'], ⟨['n', 'l', '-', 'S', 'R'], ['D', 'M', 'Y'], false, 1⟩),
   (['n', 'l', '-', 'S', 'X'], ⟨['n', 'l', '-', 'S', 'X'], ['D', 'M', 'Y'], false, 1⟩),
   (['n', 'm', 'g'], ⟨['n', 'm', 'g'], ['D', 'M', 'Y'], false, 0⟩),
   (['n', 'n'], ⟨['n', 'n'], ['D', 'M', 'Y'], false, 0⟩),
   (['n', 'n', 'h'], ⟨['n', 'n', 'h'], ['D', 'M', 'Y'], false, 0⟩),
   (['n', 'u', 's'], ⟨['n', 'u', 's'], ['D', 'M', 'Y'], false, 0⟩),
   (['n', 'y', 'n'], ⟨['n', 'y', 'n'], ['D', 'M', 'Y'], false, 0⟩),
   (['o', 'm'], ⟨['o', 'm'], ['D', 'M', 'Y'], false, 0⟩),
   (['o', 'm', '-', 'K', 'E'], ⟨['o', 'm', '-', 'K', 'E'], ['D', 'M', 'Y'], false, 0⟩),
   (['o', 'r'], ⟨['o', 'r'], ['D', 'M', 'Y'], false, 0⟩),
   (['o', 's'], ⟨['o', 's'], ['D', 'M', 'Y'], false, 0⟩),
   (['o', 's', '-', 'R', 'U'], ⟨['o', 's', '-', 'R', 'U'], ['D', 'M', 'Y'], false, 0⟩),
   (['p', 'a'], ⟨['p', 'a'], ['D', 'M', 'Y'], false, 0⟩),
   (['p', 'a', '-', 'A', 'r', 'a', 'b'], ⟨['p', 'a', '-', 'A', 'r', 'a', 'b'], ['D', 'M', 'Y'], false, 0⟩),
   (['p', 'a', '-', 'G', 'u', 'r', 'u'], ⟨['p', 'a', '-', 'G', 'u', 'r', 'u'], ['D', 'M', 'Y'], false, 0⟩),
   (['p', 'l'], ⟨['p', 'l'], ['D', 'M', 'Y'], false, 1⟩),
   (['p', 's'], ⟨['p', 's'], ['Y', 'M', 'D'], false, 0⟩),
   (['p', 't'], ⟨['p', 't'], ['D', 'M', 'Y'], false, 1⟩),
   (['p', 't', '-', 'A', 'O'], ⟨['p', 't', '-', 'A', 'O'], ['D', 'M', 'Y'], false, 1⟩),
   (['p', 't', '-', 'C', 'H'], ⟨['p', 't', '-', 'C', 'H'], ['D', 'M', 'Y'], false, 1⟩),
   (['p', 't', '-', 'C', 'V'], ⟨['p', 't', '-', 'C', 'V'], ['D', 'M', 'Y'], false, 1⟩),
   (['p', 't', '-', 'G', 'Q'], ⟨['p', 't', '-', 'G', 'Q'], ['D', 'M', 'Y'], false, 1⟩),
   (['p', 't', '-', 'G', 'W'], ⟨['p', 't', '-', 'G', 'W'], ['D', 'M', 'Y'], false, 1⟩),
   (['p', 't', '-', 'L', 'U'], ⟨['p', 't', '-', 'L', 'U'], ['D', 'M', 'Y'], false, 1⟩),
   (['p', 't', '-', 'M', 'O'], ⟨['p', 't', '-', 'M', 'O'], ['D', 'M', 'Y'], false, 1⟩),
   (['p', 't', '-', 'M', 'Z'], ⟨['p', 't', '-', 'M', 'Z'], ['D', 'M', 'Y'], false, 1⟩),
   (['p', 't', '-', 'P', 'T'], ⟨['p', 't', '-', 'P', 'T'], ['D', 'M', 'Y'], false, 1⟩),
   (['p', 't', '-', 'S', 'T'], ⟨['p', 't', '-', 'S', 'T'], ['D', 'M', 'Y'], false, 1⟩),
   (['p', 't', '-', 'T', 'L'], ⟨['p', 't', '-', 'T', 'L'], ['D', 'M', 'Y'], false, 1⟩),
   (['q', 'u'], ⟨['q', 'u'], ['D', 'M', 'Y'], false, 0⟩),
   (['q', 'u', '-', 'B', 'O'], ⟨['q', 'u', '-', 'B', 'O'], ['D', 'M', 'Y'], false, 0⟩),
   (['q', 'u', '-', 'E', 'C'], ⟨['q', 'u', '-', 'E', 'C'], ['D', 'M', 'Y'], false, 0⟩),
   (['r', 'm'], ⟨['r', 'm'], ['D', 'M', 'Y'], false, 0⟩),
   (['r', 'n'], ⟨['r', 'n'], ['D', 'M', 'Y'], false, 0⟩),
   (['r', 'o'], ⟨['r', 'o'], ['D', 'M', 'Y'], false, 1⟩),
   (['r', 'o', '-', 'M', 'D'], ⟨['r', 'o', '-', 'M', 'D'], ['D', 'M', 'Y'], false, 1⟩),
   (['r', 'o', 'f'], ⟨['r', 'o', 'f'], ['D', 'M', 'Y'], false, 0⟩),
   (['r', 'u'], ⟨['r', 'u'], ['D', 'M', 'Y'], false, 1⟩),
   (['r', 'u', '-', 'B', 'Y'], ⟨['r', 'u', '-', 'B', 'Y'], ['D', 'M', 'Y'], false, 1⟩),
   (['r', 'u', '-', 'K', 'G'], ⟨['r', 'u', '-', 'K', 'G'], ['D', 'M', 'Y'], false, 1⟩),
   (['r', 'u', '-', 'K', 'Z'], ⟨['r', 'u', '-', 'K', 'Z'], ['D', 'M', 'Y'], false, 1⟩),
   (['r', 'u', '-', 'M', 'D'], ⟨['r', 'u', '-', 'M', 'D'], ['D', 'M', 'Y'], false, 1⟩),
   (['r', 'u', '-', 'U', 'A'], ⟨['r', 'u', '-', 'U', 'A'], ['D', 'M', 'Y'], false, 1⟩),
   (['r', 'w'], ⟨['r', 'w'], ['Y', 'M', 'D'], false, 0⟩),
   (['r', 'w', 'k'], ⟨['r', 'w', 'k'], ['D', 'M', 'Y'], false, 0⟩),
   (['s', 'a', 'h'], ⟨['s', 'a', 'h'], ['Y', 'M', 'D'], false, 0⟩),
   (['s', 'a', 'q'], ⟨['s', 'a', 'q'], ['D', 'M', 'Y'], false, 0⟩),
   (['s', 'b', 'p'], ⟨['s', 'b', 'p'], ['D', 'M', 'Y'], false, 0⟩),
   (['s', 'e'], ⟨['s', 'e'], ['Y', 'M', 'D'], false, 0⟩),
   (['s', 'e', '-', 'F', 'I'], ⟨['s', 'e', '-', 'F', 'I'], ['Y', 'M', 'D'], false, 0⟩),
   (['s', 'e', '-', 'S', 'E'], ⟨['s', 'e', '-', 'S', 'E'], ['Y', 'M', 'D'], false, 0⟩),
   (['s', 'e', 'h'], ⟨['s', 'e', 'h'], ['D', 'M', 'Y'], false, 0⟩),
   (['s', 'e', 's'], ⟨['s', 'e', 's'], ['D', 'M', 'Y'], false, 0⟩),
   (['s', 'g'], ⟨['s', 'g'], ['D', 'M', 'Y'], false, 0⟩),
   (['s', 'h', 'i'], ⟨['s', 'h', 'i'], ['D', 'M', 'Y'], false, 0⟩),
   (['s', 'h', 'i', '-', 'L', 'a', 't', 'n'], ⟨['s', 'h', 'i', '-', 'L', 'a', 't', 'n'], ['D', 'M', 'Y'], false, 0⟩),
   (['s', 'h', 'i', '-', 'T', 'f', 'n', 'g'], ⟨['s', 'h', 'i', '-', 'T', 'f', 'n', 'g'], ['D', 'M', 'Y'], false, 0⟩),
   (['s', 'i'], ⟨['s', 'i'], ['Y', 'M', 'D'], false, 0⟩),
   (['s', 'k'], ⟨['s', 'k'], ['D', 'M', 'Y'], false, 1⟩),
   (['s', 'l'], ⟨['s', 'l'], ['D', 'M', 'Y'], false, 0⟩),
   (['s', 'm', 'n'], ⟨['s', 'm', 'n'], ['D', 'M', 'Y'], false, 0⟩),
   (['s', 'n'], ⟨['s', 'n'], ['Y', 'M', 'D'], false, 0⟩),
   (['s', 'o'], ⟨['s', 'o'], ['D', 'M', 'Y'], false, 0⟩),
   (['s', 'o', '-', 'D', 'J'], ⟨['s', 'o', '-', 'D', 'J'], ['D', 'M', 'Y'], false, 0⟩),
   (['s', 'o', '-', 'E', 'T'], ⟨['s', 'o', '-', 'E', 'T'], ['D', 'M', 'Y'], false, 0⟩),
   (['s', 'o', '-', 'K', 'E'], ⟨['s', 'o', '-', 'K', 'E'], ['D', 'M', 'Y'], false, 0⟩),
   (['s', 'q'], ⟨['s', 'q'], ['D', 'M', 'Y'], false, 0⟩),
   (['s', 'q', '-', 'M', 'K'], ⟨['s', 'q', '-', 'M', 'K'], ['D', 'M', 'Y'], false, 0⟩),
   (['s', 'q', '-', 'X', 'K'], ⟨['s', 'q', '-', 'X', 'K'], ['D', 'M', 'Y'], false, 0⟩),
   (['s', 'r'], ⟨['s', 'r'], ['D', 'M', 'Y', '.'], false, 0⟩),
   (['s', 'r', '-', 'C', 'y', 'r', 'l'], ⟨['s', 'r', '-', 'C', 'y', 'r', 'l'], ['D', 'M', 'Y', '.'], false, 0⟩),
   (['s', 'r', '-', 'C', 'y', 'r', 'l', '-', 'B', 'A'], ⟨['s', 'r', '-', 'C', 'y', 'r', 'l', '-', 'B', 'A'], ['D', 'M', 'Y', '.'], false, 0⟩),
   (['s', 'r', '-', 'C', 'y', 'r', 'l', '-', 'M', 'E'], ⟨['s', 'r', '-', 'C', 'y', 'r', 'l', '-', 'M', 'E'], ['D', 'M', 'Y', '.'], false, 0⟩),
   (['s', 'r', '-', 'C', 'y', 'r', 'l', '-', 'X', 'K'], ⟨['s', 'r', '-', 'C', 'y', 'r', 'l', '-', 'X', 'K'], ['D', 'M', 'Y', '.'], false, 0⟩),
   (['s', 'r', '-', 'L', 'a', 't', 'n'], ⟨['s', 'r', '-', 'L', 'a', 't', 'n'], ['D', 'M', 'Y', '.'], false, 0⟩),
   (['s', 'r', '-', 'L', 'a', 't', 'n', '-', 'B', 'A'], ⟨['s', 'r', '-', 'L', 'a', 't', 'n', '-', 'B', 'A'], ['D', 'M', 'Y', '.'], false, 0⟩),
   (['s', 'r', '-', 'L', 'a', 't', 'n', '-', 'M', 'E'], ⟨['s', 'r', '-', 'L', 'a', 't', 'n', '-', 'M', 'E'], ['D', 'M', 'Y', '.'], false, 0⟩),
   (['s', 'r', '-', 'L', 'a', 't', 'n', '-', 'X', 'K'], ⟨['s', 'r', '-', 'L', 'a', 't', 'n', '-', 'X', 'K'], ['D', 'M', 'Y', '.'], false, 0⟩),
   (['s', 'v'], ⟨['s', 'v'], ['Y', 'M', 'D'], false, 1⟩),
   (['s', 'v', '-', 'A', 'X'], ⟨['s', 'v', '-', 'A', 'X'], ['Y', 'M', 'D'], false, 1⟩),
   (['s', 'v', '-', 'F', 'I'], ⟨['s', 'v', '-', 'F', 'I'], ['D', 'M', 'Y'], false, 1⟩),
   (['s', 'w'], ⟨['s', 'w'], ['D', 'M', 'Y'], false, 0⟩),
   (['s', 'w', '-', 'C', 'D'], ⟨['s', 'w', '-', 'C', 'D'], ['D', 'M', 'Y'], false, 0⟩),
   (['s', 'w', '-', 'K', 'E'], ⟨['s', 'w', '-', 'K', 'E'], ['D', 'M', 'Y'], false, 0⟩),
   (['s', 'w', '-', 'U', 'G'], ⟨['s', 'w', '-', 'U', 'G'], ['D', 'M', 'Y'], false, 0⟩),
   (['t', 'a'], ⟨['t', 'a'], ['D', 'M', 'Y'], false, 0⟩),
   (['t', 'a', '-', 'L', 'K'], ⟨['t', 'a', '-', 'L', 'K'], ['D', 'M', 'Y'], false, 0⟩),
   (['t', 'a', '-', 'M', 'Y'], ⟨['t', 'a', '-', 'M', 'Y'], ['D', 'M', 'Y'], false, 0⟩),
   (['t', 'a', '-', 'S', 'G'], ⟨['t', 'a', '-', 'S', 'G'], ['D', 'M', 'Y'], false, 0⟩),
   (['t', 'e'], ⟨['t', 'e'], ['D', 'M', 'Y'], false, 0⟩),
   (['t', 'e', 'o'], ⟨['t', 'e', 'o'], ['D', 'M', 'Y'], false, 0⟩),
   (['t', 'e', 'o', '-', 'K', 'E'], ⟨['t', 'e', 'o', '-', 'K', 'E'], ['D', 'M', 'Y'], false, 0⟩),
   (['t', 'h'], ⟨['t', 'h'], ['D', 'M', 'Y'], false, 5⟩),
   (['t', 'i'], ⟨['t', 'i'], ['D', 'M', 'Y'], false, 0⟩),
   (['t', 'i', '-', 'E', 'R'], ⟨['t', 'i', '-', 'E', 'R'], ['D', 'M', 'Y'], false, 0⟩),
   (['t', 'l'], ⟨['t', 'l'], [], false, 1⟩),
   (['t', 'o'], ⟨['t', 'o'], ['D', 'M', 'Y'], false, 0⟩),
   (['t', 'r'], ⟨['t', 'r'], ['D', 'M', 'Y'], false, 1⟩),
   (['t', 'r', '-', 'C', 'Y'], ⟨['t', 'r', '-', 'C', 'Y'], ['D', 'M', 'Y'], false, 1⟩),
   (['t', 'w', 'q'], ⟨['t', 'w', 'q'], ['D', 'M', 'Y'], false, 0⟩),
   (['t', 'z', 'm'], ⟨['t', 'z', 'm'], ['D', 'M', 'Y'], false, 0⟩),
   (['u', 'g'], ⟨['u', 'g'], ['Y', 'M', 'D'], false, 0⟩),
   (['u', 'k'], ⟨['u', 'k'], ['D', 'M', 'Y'], false, 1⟩),
   (['u', 'r'], ⟨['u', 'r'], ['D', 'M', 'Y'], false, 0⟩),
   (['u', 'r', '-', 'I', 'N'], ⟨['u', 'r', '-', 'I', 'N'], ['D', 'M', 'Y'], false, 0⟩),
   (['u', 'z'], ⟨['u', 'z'], ['D', 'M', 'Y'], false, 0⟩),
   (['u', 'z', '-', 'A', 'r', 'a', 'b'], ⟨['u', 'z', '-', 'A', 'r', 'a', 'b'], ['Y', 'M', 'D'], false, 0⟩),
   (['u', 'z', '-', 'C', 'y', 'r', 'l'], ⟨['u', 'z', '-', 'C', 'y', 'r', 'l'], ['D', 'M', 'Y'], false, 0⟩),
   (['u', 'z', '-', 'L', 'a', 't', 'n'], ⟨['u', 'z', '-', 'L', 'a', 't', 'n'], ['D', 'M', 'Y'], false, 0⟩),
   (['v', 'i'], ⟨['v', 'i'], ['D', 'M', 'Y'], false, 1⟩),
   (['v', 'u', 'n'], ⟨['v', 'u', 'n'], ['D', 'M', 'Y'], false, 0⟩),
   (['w', 'a', 'e'], ⟨['w', 'a', 'e'], ['Y', 'M', 'D'], false, 0⟩),
   (['x', 'o', 'g'], ⟨['x', 'o', 'g'], ['D', 'M', 'Y'], false, 0⟩),
   (['y', 'a', 'v'], ⟨['y', 'a', 'v'], ['D', 'M', 'Y'], false, 0⟩),
   (['y', 'i'], ⟨['y', 'i'], ['D', 'M', 'Y'], false, 0⟩),
   (['y', 'o'], ⟨['y', 'o'], ['D', 'M', 'Y'], false, 0⟩),
   (['y', 'o', '-', 'B', 'J'], ⟨['y', 'o', '-', 'B', 'J'], ['D', 'M', 'Y'], false, 0⟩),
   (['y', 'u', 'e'], ⟨['y', 'u', 'e'], ['Y', 'M', 'D'], true, 4⟩),
   (['z', 'g', 'h'], ⟨['z', 'g', 'h'], ['D', 'M', 'Y'], false, 0⟩),
   (['z', 'h'], ⟨['z', 'h'], ['Y', 'M', 'D'], true, 4⟩),
   (['z', 'h', '-', 'H', 'a', 'n', 's'], ⟨['z', 'h', '-', 'H', 'a', 'n', 's'], ['Y', 'M', 'D'], true, 4⟩),
   (['z', 'h', '-', 'H', 'a', 'n', 's', '-', 'H', 'K'], ⟨['z', 'h', '-', 'H', 'a', 'n', 's', '-', 'H', 'K'], ['D', 'M', 'Y'], true, 4⟩),
   (['z', 'h', '-', 'H', 'a', 'n', 's', '-', 'M', 'O'], ⟨['z', 'h', '-', 'H', 'a', 'n', 's', '-', 'M', 'O'], ['D', 'M', 'Y'], true, 4⟩),
   (['z', 'h', '-', 'H', 'a', 'n', 's', '-', 'S', 'G'], ⟨['z', 'h', '-', 'H', 'a', 'n', 's', '-', 'S', 'G'], ['D', 'M', 'Y'], true, 4⟩),
   (['z', 'h', '-', 'H', 'a', 'n', 't'], ⟨['z', 'h', '-', 'H', 'a', 'n', 't'], ['Y', 'M', 'D'], true, 4⟩),
   (['z', 'h', '-', 'H', 'a', 'n', 't', '-', 'H', 'K'], ⟨['z', 'h', '-', 'H', 'a', 'n', 't', '-', 'H', 'K'], ['D', 'M', 'Y'], true, 4⟩),
   (['z', 'h', '-', 'H', 'a', 'n', 't', '-', 'M', 'O'], ⟨['z', 'h', '-', 'H', 'a', 'n', 't', '-', 'M', 'O'], ['D', 'M', 'Y'], true, 4⟩),
   (['z', 'u'], ⟨['z', 'u'], ['M', 'D', 'Y'], false, 0⟩)]

end Verif.Data
