import Verif.Model.Layout

/-!
# The composed form of the texts of the shipped layouts

Written by `tools/gen_data.py` with Python's `unicodedata`.
-/

namespace Lulua.Data

/-- Text and `unicodedata.normalize ('NFC', text)`; Unicode 14.0.0. -/
def composedTexts : Dict Text Text :=
  [(['\u0008'], ['\u0008']), (['\u0009'], ['\u0009']), (['\u000a'], ['\u000a']),
   (['\u0020'], ['\u0020']), (['\u0021'], ['\u0021']), (['\u0022'], ['\u0022']),
   (['\u0023'], ['\u0023']), (['\u0024'], ['\u0024']), (['\u0025'], ['\u0025']),
   (['\u0026'], ['\u0026']), (['\u0027'], ['\u0027']), (['\u0028'], ['\u0028']),
   (['\u0029'], ['\u0029']), (['\u002a'], ['\u002a']), (['\u002b'], ['\u002b']),
   (['\u002c'], ['\u002c']), (['\u002d'], ['\u002d']), (['\u002e'], ['\u002e']),
   (['\u002f'], ['\u002f']), (['0'], ['0']), (['1'], ['1']), (['2'], ['2']), (['3'], ['3']),
   (['4'], ['4']), (['5'], ['5']), (['6'], ['6']), (['7'], ['7']), (['8'], ['8']),
   (['9'], ['9']), (['\u003a'], ['\u003a']), (['\u003b'], ['\u003b']), (['\u003c'], ['\u003c']),
   (['\u003d'], ['\u003d']), (['\u003d', '\u0338'], ['\u2260']), (['\u003e'], ['\u003e']),
   (['\u003f'], ['\u003f']), (['\u0040'], ['\u0040']), (['\u005b'], ['\u005b']),
   (['\u005c'], ['\u005c']), (['\u005d'], ['\u005d']), (['\u005e'], ['\u005e']),
   (['\u005f'], ['\u005f']), (['\u0060'], ['\u0060']), (['\u007b'], ['\u007b']),
   (['\u007c'], ['\u007c']), (['\u007d'], ['\u007d']), (['\u007e'], ['\u007e']),
   (['\u00a3'], ['\u00a3']), (['\u00a6'], ['\u00a6']), (['\u00a7'], ['\u00a7']),
   (['\u00ab'], ['\u00ab']), (['\u00b1'], ['\u00b1']), (['\u00bb'], ['\u00bb']),
   (['\u00d7'], ['\u00d7']), (['\u00f7'], ['\u00f7']), (['\u0609'], ['\u0609']),
   (['\u060c'], ['\u060c']), (['\u0610'], ['\u0610']), (['\u0611'], ['\u0611']),
   (['\u0612'], ['\u0612']), (['\u0613'], ['\u0613']), (['\u0615'], ['\u0615']),
   (['\u061b'], ['\u061b']), (['\u061c'], ['\u061c']), (['\u061e'], ['\u061e']),
   (['\u061f'], ['\u061f']), (['\u0621'], ['\u0621']), (['\u0627'], ['\u0627']),
   (['\u0627', '\u0653'], ['\u0622']), (['\u0627', '\u0654'], ['\u0623']),
   (['\u0627', '\u0655'], ['\u0625']), (['\u0628'], ['\u0628']), (['\u0629'], ['\u0629']),
   (['\u062a'], ['\u062a']), (['\u062b'], ['\u062b']), (['\u062c'], ['\u062c']),
   (['\u062d'], ['\u062d']), (['\u062e'], ['\u062e']), (['\u062f'], ['\u062f']),
   (['\u0630'], ['\u0630']), (['\u0631'], ['\u0631']), (['\u0632'], ['\u0632']),
   (['\u0633'], ['\u0633']), (['\u0634'], ['\u0634']), (['\u0635'], ['\u0635']),
   (['\u0636'], ['\u0636']), (['\u0637'], ['\u0637']), (['\u0638'], ['\u0638']),
   (['\u0639'], ['\u0639']), (['\u063a'], ['\u063a']), (['\u0640'], ['\u0640']),
   (['\u0641'], ['\u0641']), (['\u0642'], ['\u0642']), (['\u0643'], ['\u0643']),
   (['\u0644'], ['\u0644']), (['\u0644', '\u0627'], ['\u0644', '\u0627']),
   (['\u0644', '\u0627', '\u0653'], ['\u0644', '\u0622']),
   (['\u0644', '\u0627', '\u0654'], ['\u0644', '\u0623']),
   (['\u0644', '\u0627', '\u0655'], ['\u0644', '\u0625']), (['\u0645'], ['\u0645']),
   (['\u0646'], ['\u0646']), (['\u0647'], ['\u0647']), (['\u0648'], ['\u0648']),
   (['\u0648', '\u0654'], ['\u0624']), (['\u0649'], ['\u0649']), (['\u064a'], ['\u064a']),
   (['\u064a', '\u0654'], ['\u0626']), (['\u064b'], ['\u064b']), (['\u064c'], ['\u064c']),
   (['\u064d'], ['\u064d']), (['\u064e'], ['\u064e']), (['\u064f'], ['\u064f']),
   (['\u0650'], ['\u0650']), (['\u0651'], ['\u0651']),
   (['\u0651', '\u064c'], ['\u064c', '\u0651']), (['\u0651', '\u064d'], ['\u064d', '\u0651']),
   (['\u0651', '\u064e'], ['\u064e', '\u0651']), (['\u0651', '\u064f'], ['\u064f', '\u0651']),
   (['\u0651', '\u0650'], ['\u0650', '\u0651']), (['\u0652'], ['\u0652']),
   (['\u0653'], ['\u0653']), (['\u0654'], ['\u0654']), (['\u0655'], ['\u0655']),
   (['\u0660'], ['\u0660']), (['\u0661'], ['\u0661']), (['\u0662'], ['\u0662']),
   (['\u0663'], ['\u0663']), (['\u0664'], ['\u0664']), (['\u0665'], ['\u0665']),
   (['\u0666'], ['\u0666']), (['\u0667'], ['\u0667']), (['\u0668'], ['\u0668']),
   (['\u0669'], ['\u0669']), (['\u066a'], ['\u066a']), (['\u066b'], ['\u066b']),
   (['\u066c'], ['\u066c']), (['\u066d'], ['\u066d']), (['\u0670'], ['\u0670']),
   (['\u0671'], ['\u0671']), (['\u067e'], ['\u067e']), (['\u0686'], ['\u0686']),
   (['\u0698'], ['\u0698']), (['\u06a4'], ['\u06a4']), (['\u06aa'], ['\u06aa']),
   (['\u06af', '\u200e'], ['\u06af', '\u200e']), (['\u06bd'], ['\u06bd']),
   (['\u06d2'], ['\u06d2']), (['\u06d6'], ['\u06d6']), (['\u06d7'], ['\u06d7']),
   (['\u06d9'], ['\u06d9']), (['\u06da'], ['\u06da']), (['\u06db'], ['\u06db']),
   (['\u06dc'], ['\u06dc']), (['\u06dd'], ['\u06dd']), (['\u06e2'], ['\u06e2']),
   (['\u06e5'], ['\u06e5']), (['\u06e6'], ['\u06e6']), (['\u06e8'], ['\u06e8']),
   (['\u200c'], ['\u200c']), (['\u200d'], ['\u200d']), (['\u200e'], ['\u200e']),
   (['\u200f'], ['\u200f']), (['\u2011'], ['\u2011']), (['\u2013'], ['\u2013']),
   (['\u2018'], ['\u2018']), (['\u2019'], ['\u2019']), (['\u2026'], ['\u2026']),
   (['\u202a'], ['\u202a']), (['\u202b'], ['\u202b']), (['\u202c'], ['\u202c']),
   (['\u202f'], ['\u202f']), (['\u2030'], ['\u2030']), (['\u2039'], ['\u2039']),
   (['\u203a'], ['\u203a']), (['\u2066'], ['\u2066']), (['\u2067'], ['\u2067']),
   (['\u2068'], ['\u2068']), (['\u2069'], ['\u2069']), (['\u2212'], ['\u2212']),
   (['\u2215'], ['\u2215']), (['\u2248'], ['\u2248']), (['\u274a'], ['\u274a']),
   (['\u27e8'], ['\u27e8']), (['\u27e9'], ['\u27e9']), (['\ufba9'], ['\ufba9']),
   (['\ufdfa'], ['\ufdfa']), (['\ufdfb'], ['\ufdfb']), (['\ufe8c'], ['\ufe8c']),
   (['\ufee3'], ['\ufee3'])]

end Lulua.Data
