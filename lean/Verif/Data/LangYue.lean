import Verif.Model.Pattern
/-! GENERATED by tools/gen_langs.py from /repo/internal/data/yue.go; do not edit. -/
set_option autoImplicit false
set_option maxRecDepth 100000
namespace Verif.Data
open Verif.Model

/-- internal/data/yue.go: `yue_Locale`. -/
def yueData : LangData where
  name := ['y', 'u', 'e']
  noWordSpacing := true
  splitterGroup := 4
  translations :=
   [(['1', '0', '月'], [['o', 'c', 't', 'o', 'b', 'e', 'r']]),
    (['1', '1', '月'], [['n', 'o', 'v', 'e', 'm', 'b', 'e', 'r']]),
    (['1', '2', '月'], [['d', 'e', 'c', 'e', 'm', 'b', 'e', 'r']]),
    (['g', 'm', 't'], [['g', 'm', 't']]),
    (['u', 't', 'c'], [['u', 't', 'c']]),
    (['星', '期', '一'], [['m', 'o', 'n', 'd', 'a', 'y']]),
    (['星', '期', '三'], [['w', 'e', 'd', 'n', 'e', 's', 'd', 'a', 'y']]),
    (['星', '期', '二'], [['t', 'u', 'e', 's', 'd', 'a', 'y']]),
    (['星', '期', '五'], [['f', 'r', 'i', 'd', 'a', 'y']]),
    (['星', '期', '六'], [['s', 'a', 't', 'u', 'r', 'd', 'a', 'y']]),
    (['星', '期', '四'], [['t', 'h', 'u', 'r', 's', 'd', 'a', 'y']]),
    (['星', '期', '日'], [['s', 'u', 'n', 'd', 'a', 'y']]),
    (['1', '月'], [['j', 'a', 'n', 'u', 'a', 'r', 'y']]),
    (['2', '月'], [['f', 'e', 'b', 'r', 'u', 'a', 'r', 'y']]),
    (['3', '月'], [['m', 'a', 'r', 'c', 'h']]),
    (['4', '月'], [['a', 'p', 'r', 'i', 'l']]),
    (['5', '月'], [['m', 'a', 'y']]),
    (['6', '月'], [['j', 'u', 'n', 'e']]),
    (['7', '月'], [['j', 'u', 'l', 'y']]),
    (['8', '月'], [['a', 'u', 'g', 'u', 's', 't']]),
    (['9', '月'], [['s', 'e', 'p', 't', 'e', 'm', 'b', 'e', 'r']]),
    (['a', 'm'], [['a', 'm']]),
    (['p', 'm'], [['p', 'm']]),
    (['上', '午'], [['a', 'm']]),
    (['下', '午'], [['p', 'm']]),
    (['分', '鐘'], [['m', 'i', 'n', 'u', 't', 'e']]),
    (['小', '時'], [['h', 'o', 'u', 'r']]),
    (['週', '一'], [['m', 'o', 'n', 'd', 'a', 'y']]),
    (['週', '三'], [['w', 'e', 'd', 'n', 'e', 's', 'd', 'a', 'y']]),
    (['週', '二'], [['t', 'u', 'e', 's', 'd', 'a', 'y']]),
    (['週', '五'], [['f', 'r', 'i', 'd', 'a', 'y']]),
    (['週', '六'], [['s', 'a', 't', 'u', 'r', 'd', 'a', 'y']]),
    (['週', '四'], [['t', 'h', 'u', 'r', 's', 'd', 'a', 'y']]),
    (['週', '日'], [['s', 'u', 'n', 'd', 'a', 'y']]),
    ([' '], [[' ']]),
    (['\''], [[]]),
    (['+'], [['+']]),
    ([','], [[]]),
    (['-'], [['-']]),
    (['.'], [['.']]),
    (['/'], [['/']]),
    ([':'], [[':']]),
    ([';'], [[]]),
    (['@'], [[]]),
    (['['], [[]]),
    ([']'], [[]]),
    (['z'], [['z']]),
    (['|'], [[]]),
    (['年'], [['y', 'e', 'a', 'r']]),
    (['日'], [['d', 'a', 'y']]),
    (['月'], [['m', 'o', 'n', 't', 'h']]),
    (['秒'], [['s', 'e', 'c', 'o', 'n', 'd']]),
    (['週'], [['w', 'e', 'e', 'k']])]
  relativeType :=
   [(['今', '個', '星', '期'], ['0', ' ', 'w', 'e', 'e', 'k', ' ', 'a', 'g', 'o']),
    (['呢', '個', '小', '時'], ['0', ' ', 'h', 'o', 'u', 'r', ' ', 'a', 'g', 'o']),
    (['上', '個', '月'], ['1', ' ', 'm', 'o', 'n', 't', 'h', ' ', 'a', 'g', 'o']),
    (['上', '星', '期'], ['1', ' ', 'w', 'e', 'e', 'k', ' ', 'a', 'g', 'o']),
    (['下', '個', '月'], ['i', 'n', ' ', '1', ' ', 'm', 'o', 'n', 't', 'h']),
    (['下', '星', '期'], ['i', 'n', ' ', '1', ' ', 'w', 'e', 'e', 'k']),
    (['今', '個', '月'], ['0', ' ', 'm', 'o', 'n', 't', 'h', ' ', 'a', 'g', 'o']),
    (['呢', '分', '鐘'], ['0', ' ', 'm', 'i', 'n', 'u', 't', 'e', ' ', 'a', 'g', 'o']),
    (['下', '年'], ['i', 'n', ' ', '1', ' ', 'y', 'e', 'a', 'r']),
    (['今', '年'], ['0', ' ', 'y', 'e', 'a', 'r', ' ', 'a', 'g', 'o']),
    (['今', '日'], ['0', ' ', 'd', 'a', 'y', ' ', 'a', 'g', 'o']),
    (['宜', '家'], ['0', ' ', 's', 'e', 'c', 'o', 'n', 'd', ' ', 'a', 'g', 'o']),
    (['尋', '日'], ['1', ' ', 'd', 'a', 'y', ' ', 'a', 'g', 'o']),
    (['聽', '日'], ['i', 'n', ' ', '1', ' ', 'd', 'a', 'y']),
    (['舊', '年'], ['1', ' ', 'y', 'e', 'a', 'r', ' ', 'a', 'g', 'o'])]
  relativeRegexes :=
   [(.seqs [.grp 1 (.number), .lit [' ', '個', '星', '期', '前']], [.ref 1, .lit [' ', 'w', 'e', 'e', 'k', ' ', 'a', 'g', 'o']]),
    (.seqs [.grp 1 (.number), .lit [' ', '個', '星', '期', '後']], [.lit ['i', 'n', ' '], .ref 1, .lit [' ', 'w', 'e', 'e', 'k']]),
    (.seqs [.grp 1 (.number), .lit [' ', '個', '月', '前']], [.ref 1, .lit [' ', 'm', 'o', 'n', 't', 'h', ' ', 'a', 'g', 'o']]),
    (.seqs [.grp 1 (.number), .lit [' ', '個', '月', '後']], [.lit ['i', 'n', ' '], .ref 1, .lit [' ', 'm', 'o', 'n', 't', 'h']]),
    (.seqs [.grp 1 (.number), .lit [' ', '分', '鐘', '前']], [.ref 1, .lit [' ', 'm', 'i', 'n', 'u', 't', 'e', ' ', 'a', 'g', 'o']]),
    (.seqs [.grp 1 (.number), .lit [' ', '分', '鐘', '後']], [.lit ['i', 'n', ' '], .ref 1, .lit [' ', 'm', 'i', 'n', 'u', 't', 'e']]),
    (.seqs [.grp 1 (.number), .lit [' ', '小', '時', '前']], [.ref 1, .lit [' ', 'h', 'o', 'u', 'r', ' ', 'a', 'g', 'o']]),
    (.seqs [.grp 1 (.number), .lit [' ', '小', '時', '後']], [.lit ['i', 'n', ' '], .ref 1, .lit [' ', 'h', 'o', 'u', 'r']]),
    (.seqs [.grp 1 (.number), .lit [' ', '年', '前']], [.ref 1, .lit [' ', 'y', 'e', 'a', 'r', ' ', 'a', 'g', 'o']]),
    (.seqs [.grp 1 (.number), .lit [' ', '年', '後']], [.lit ['i', 'n', ' '], .ref 1, .lit [' ', 'y', 'e', 'a', 'r']]),
    (.seqs [.grp 1 (.number), .lit [' ', '日', '前']], [.ref 1, .lit [' ', 'd', 'a', 'y', ' ', 'a', 'g', 'o']]),
    (.seqs [.grp 1 (.number), .lit [' ', '日', '後']], [.lit ['i', 'n', ' '], .ref 1, .lit [' ', 'd', 'a', 'y']]),
    (.seqs [.grp 1 (.number), .lit [' ', '秒', '前']], [.ref 1, .lit [' ', 's', 'e', 'c', 'o', 'n', 'd', ' ', 'a', 'g', 'o']]),
    (.seqs [.grp 1 (.number), .lit [' ', '秒', '後']], [.lit ['i', 'n', ' '], .ref 1, .lit [' ', 's', 'e', 'c', 'o', 'n', 'd']])]
  rxCombined := some (.grp 1 (.alts [.seqs [.number, .lit [' ', '個', '星', '期', '前']], .seqs [.number, .lit [' ', '個', '星', '期', '後']], .seqs [.number, .lit [' ', '個', '月', '前']], .seqs [.number, .lit [' ', '個', '月', '後']], .seqs [.number, .lit [' ', '分', '鐘', '前']], .seqs [.number, .lit [' ', '分', '鐘', '後']], .seqs [.number, .lit [' ', '小', '時', '前']], .seqs [.number, .lit [' ', '小', '時', '後']], .seqs [.number, .lit [' ', '年', '前']], .seqs [.number, .lit [' ', '年', '後']], .seqs [.number, .lit [' ', '日', '前']], .seqs [.number, .lit [' ', '日', '後']], .seqs [.number, .lit [' ', '秒', '前']], .seqs [.number, .lit [' ', '秒', '後']]]), 1)
  rxExact := some (.seqs [.bos, .grp 1 (.alts [.seqs [.number, .lit [' ', '個', '星', '期', '前']], .seqs [.number, .lit [' ', '個', '星', '期', '後']], .seqs [.number, .lit [' ', '個', '月', '前']], .seqs [.number, .lit [' ', '個', '月', '後']], .seqs [.number, .lit [' ', '分', '鐘', '前']], .seqs [.number, .lit [' ', '分', '鐘', '後']], .seqs [.number, .lit [' ', '小', '時', '前']], .seqs [.number, .lit [' ', '小', '時', '後']], .seqs [.number, .lit [' ', '年', '前']], .seqs [.number, .lit [' ', '年', '後']], .seqs [.number, .lit [' ', '日', '前']], .seqs [.number, .lit [' ', '日', '後']], .seqs [.number, .lit [' ', '秒', '前']], .seqs [.number, .lit [' ', '秒', '後']]]), .eos])
  knownWords :=
   [['今', '個', '星', '期'],
    ['呢', '個', '小', '時'],
    ['1', '0', '月'],
    ['1', '1', '月'],
    ['1', '2', '月'],
    ['g', 'm', 't'],
    ['u', 't', 'c'],
    ['上', '個', '月'],
    ['上', '星', '期'],
    ['下', '個', '月'],
    ['下', '星', '期'],
    ['今', '個', '月'],
    ['呢', '分', '鐘'],
    ['星', '期', '一'],
    ['星', '期', '三'],
    ['星', '期', '二'],
    ['星', '期', '五'],
    ['星', '期', '六'],
    ['星', '期', '四'],
    ['星', '期', '日'],
    ['1', '月'],
    ['2', '月'],
    ['3', '月'],
    ['4', '月'],
    ['5', '月'],
    ['6', '月'],
    ['7', '月'],
    ['8', '月'],
    ['9', '月'],
    ['a', 'm'],
    ['p', 'm'],
    ['上', '午'],
    ['下', '午'],
    ['下', '年'],
    ['今', '年'],
    ['今', '日'],
    ['分', '鐘'],
    ['宜', '家'],
    ['尋', '日'],
    ['小', '時'],
    ['聽', '日'],
    ['舊', '年'],
    ['週', '一'],
    ['週', '三'],
    ['週', '二'],
    ['週', '五'],
    ['週', '六'],
    ['週', '四'],
    ['週', '日'],
    [' '],
    ['\''],
    ['+'],
    [','],
    ['-'],
    ['.'],
    ['/'],
    [':'],
    [';'],
    ['@'],
    ['['],
    [']'],
    ['z'],
    ['|'],
    ['年'],
    ['日'],
    ['月'],
    ['秒'],
    ['週']]

end Verif.Data
