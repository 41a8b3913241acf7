import Verif.Model.Layout

/-!
# The shipped layouts

Written by `tools/gen_data.py` from `lulua/data/layouts/`. Entries are listed in the order of the
files; `ofPairs` is what the YAML loader makes of them.
-/

namespace Lulua.Data

open Lulua.Dict (ofPairs)

/-- `lulua/data/layouts/ar-alramly.yaml`. -/
def arAlramly : LayoutData where
  name := "ar-alramly"
  layout :=
    [ { modifier := [[]]
        layout := ofPairs [("Bl2", .str ['\u0661']), ("Bl3", .str ['\u0662']),
                    ("Bl4", .str ['\u0663']), ("Bl5", .str ['\u0664']),
                    ("Bl6", .str ['\u0665']), ("Bl7", .str ['\u0666']),
                    ("Br6", .str ['\u0667']), ("Br5", .str ['\u0668']),
                    ("Br4", .str ['\u0669']), ("Br3", .str ['\u0660']),
                    ("Br2", .str ['\u064a', '\u0654']), ("Br1", .str ['\u0029']),
                    ("Cl1", .str ['\u0636']), ("Cl2", .str ['\u0635']),
                    ("Cl3", .str ['\u062f']), ("Cl4", .str ['\u0638']),
                    ("Cl5", .str ['\u0637']), ("Cr7", .str ['\u063a']),
                    ("Cr6", .str ['\u0639']), ("Cr5", .str ['\u0648']),
                    ("Cr4", .str ['\u062e']), ("Cr3", .str ['\u062d']),
                    ("Cr2", .str ['\u062c']), ("Cr1", .str ['\u061b']),
                    ("CD_ret", .str ['\u000a']), ("Dl1", .str ['\u064a']),
                    ("Dl2", .str ['\u0646']), ("Dl3", .str ['\u0627']),
                    ("Dl4", .str ['\u0631']), ("Dl5", .str ['\u0644']),
                    ("Dr7", .str ['\u0645']), ("Dr6", .str ['\u062b']),
                    ("Dr5", .str ['\u062a']), ("Dr4", .str ['\u0628']),
                    ("Dr3", .str ['\u0640']), ("Dr2", .str ['\u0653']),
                    ("Dr1", .str ['\u0629']), ("El2", .str ['\u0634']),
                    ("El3", .str ['\u0633']), ("El4", .str ['\u0630']),
                    ("El5", .str ['\u0632']), ("El6", .str ['\u0641']),
                    ("Er5", .str ['\u0647']), ("Er4", .str ['\u0643']),
                    ("Er3", .str ['\u0642']), ("Er2", .str ['\u0621']),
                    ("Er1", .str ['\u061f']), ("Fl_space", .str ['\u0020']),
                    ("Fr_space", .str ['\u0020'])] },
      { modifier := [["El_shift"], ["Er_shift"]]
        layout := ofPairs [("Bl2", .str ['\u0021']), ("Bl3", .str ['\u0022']),
                    ("Bl4", .str ['\u066a']), ("Bl5", .str ['\u2212']),
                    ("Bl6", .str ['\u003d']), ("Bl7", .str ['\u002b']),
                    ("Br6", .str ['\u00d7']), ("Br5", .str ['\u2215']),
                    ("Br4", .str ['\u060c']), ("Br3", .str ['\u002e']),
                    ("Br2", .str ['\u005f']), ("Br1", .str ['\u0028']),
                    ("Cr2", .str ['\u0024']), ("Cr1", .str ['\u003c']),
                    ("CD_ret", .str ['\u000a']), ("Dr2", .str ['\u002a']),
                    ("Dr1", .str ['\u003e']), ("Er1", .str ['\u003a'])] } ]

/-- `lulua/data/layouts/ar-asmo663.yaml`. -/
def arAsmo663 : LayoutData where
  name := "ar-asmo663"
  layout :=
    [ { modifier := [[]]
        layout := ofPairs [("Bl2", .str ['1']), ("Bl3", .str ['2']), ("Bl4", .str ['3']),
                    ("Bl5", .str ['4']), ("Bl6", .str ['5']), ("Bl7", .str ['6']),
                    ("Br6", .str ['7']), ("Br5", .str ['8']), ("Br4", .str ['9']),
                    ("Br3", .str ['0']), ("Br2", .str ['\u002d']), ("Br1", .str ['\u005e']),
                    ("Cl1", .str ['\u0636']), ("Cl2", .str ['\u0635']),
                    ("Cl3", .str ['\u062b']), ("Cl4", .str ['\u0642']),
                    ("Cl5", .str ['\u0641']), ("Cr7", .str ['\u063a']),
                    ("Cr6", .str ['\u0639']), ("Cr5", .str ['\u0647']),
                    ("Cr4", .str ['\u062e']), ("Cr3", .str ['\u062d']),
                    ("Cr2", .str ['\u062c']), ("Cr1", .str ['\u2013']),
                    ("CD_ret", .str ['\u000a']), ("Dl1", .str ['\u0634']),
                    ("Dl2", .str ['\u0633']), ("Dl3", .str ['\u064a']),
                    ("Dl4", .str ['\u0628']), ("Dl5", .str ['\u0644']),
                    ("Dr7", .str ['\u0627']), ("Dr6", .str ['\u062a']),
                    ("Dr5", .str ['\u0646']), ("Dr4", .str ['\u0645']),
                    ("Dr3", .str ['\u0643']), ("Dr2", .str ['\u064f']),
                    ("Dr1", .str ['\u0627', '\u0654']), ("El1", .str ['\u0638']),
                    ("El2", .str ['\u0637']), ("El3", .str ['\u0630']),
                    ("El4", .str ['\u062f']), ("El5", .str ['\u0632']),
                    ("El6", .str ['\u0631']), ("Er5", .str ['\u064e']),
                    ("Er4", .str ['\u0648']), ("Er3", .str ['\u060c']),
                    ("Er2", .str ['\u002e']), ("Er1", .str ['\u0650']),
                    ("Fl_space", .str ['\u0020']), ("Fr_space", .str ['\u0020'])] },
      { modifier := [["El_shift"], ["Er_shift"]]
        layout := ofPairs [("Bl1", .str ['\u0040']), ("Bl2", .str ['\u0021']),
                    ("Bl3", .str ['\u0022']), ("Bl4", .str ['\u0023']),
                    ("Bl6", .str ['\u0025']), ("Bl7", .str ['\u0026']),
                    ("Br6", .str ['\u0027']), ("Br5", .str ['\u0028']),
                    ("Br4", .str ['\u0029']), ("Br2", .str ['\u003d']),
                    ("Cl1", .str ['\u007b']), ("Cl2", .str ['\u005b']),
                    ("Cl3", .str ['\u064b']), ("Cl4", .str ['\u0651']),
                    ("Cl5", .str ['\u0652']), ("Cr2", .str ['\u005d']),
                    ("Cr1", .str ['\u007d']), ("CD_ret", .str ['\u000a']),
                    ("Dl1", .str ['\u005c']), ("Dl2", .str ['\u064c']),
                    ("Dl3", .str ['\u064a', '\u0654']), ("Dl5", .str ['\u0627', '\u0655']),
                    ("Dr7", .str ['\u0621']), ("Dr6", .str ['\u0629']),
                    ("Dr5", .str ['\u0649']), ("Dr4", .str ['\u002f']),
                    ("Dr3", .str ['\u002b']), ("Dr2", .str ['\u002a']),
                    ("Dr1", .str ['\u0627', '\u0653']), ("El1", .str ['\u007c']),
                    ("El2", .str ['\u064d']), ("El6", .str ['\u061b']),
                    ("Er5", .str ['\u003a']), ("Er4", .str ['\u0648', '\u0654']),
                    ("Er3", .str ['\u003c']), ("Er2", .str ['\u003e']), ("Er1", .str ['\u061f'])] } ]

/-- `lulua/data/layouts/ar-ergoarabic.yaml`. -/
def arErgoarabic : LayoutData where
  name := "ar-ergoarabic"
  layout :=
    [ { modifier := [[]]
        layout := ofPairs [("Bl1", .str ['\u0060']), ("Bl2", .str ['1']), ("Bl3", .str ['2']),
                    ("Bl4", .str ['3']), ("Bl5", .str ['4']), ("Bl6", .str ['5']),
                    ("Bl7", .str ['6']), ("Br6", .str ['7']), ("Br5", .str ['8']),
                    ("Br4", .str ['9']), ("Br3", .str ['0']), ("Br2", .str ['\u002d']),
                    ("Br1", .str ['\u003d']), ("Br_bs", .str ['\u0008']),
                    ("Cl_tab", .str ['\u0009']), ("Cl1", .str ['\u062f']),
                    ("Cl2", .str ['\u0635']), ("Cl3", .str ['\u062b']),
                    ("Cl4", .str ['\u0642']), ("Cl5", .str ['\u0641']),
                    ("Cr7", .str ['\u0621']), ("Cr6", .str ['\u0639']),
                    ("Cr5", .str ['\u0647']), ("Cr4", .str ['\u0648']),
                    ("Cr3", .str ['\u0629']), ("Cr2", .str ['\u005d']),
                    ("Cr1", .str ['\u005b']), ("CD_ret", .str ['\u000a']),
                    ("Dl1", .str ['\u0634']), ("Dl2", .str ['\u0633']),
                    ("Dl3", .str ['\u064a']), ("Dl4", .str ['\u0628']),
                    ("Dl5", .str ['\u0644']), ("Dr7", .str ['\u0627']),
                    ("Dr6", .str ['\u062a']), ("Dr5", .str ['\u0646']),
                    ("Dr4", .str ['\u0645']), ("Dr3", .str ['\u0643']),
                    ("Dr2", .str ['\u0027']), ("Dr1", .str ['\u005c']),
                    ("El2", .str ['\u064a', '\u0654']), ("El3", .str ['\u0649']),
                    ("El4", .str ['\u0637']), ("El5", .str ['\u0631']),
                    ("El6", .str ['\u062e']), ("Er5", .str ['\u062d']),
                    ("Er4", .str ['\u062c']), ("Er3", .str ['\u060c']),
                    ("Er2", .str ['\u002e']), ("Er1", .str ['\u002f']),
                    ("Fl_space", .str ['\u0020']), ("Fr_space", .str ['\u0020'])] },
      { modifier := [["El_shift"], ["Er_shift"]]
        layout := ofPairs [("Bl1", .str ['\u007e']), ("Bl2", .str ['\u0021']),
                    ("Bl3", .str ['\u0040']), ("Bl4", .str ['\u0023']),
                    ("Bl5", .str ['\u0024']), ("Bl6", .str ['\u0025']),
                    ("Bl7", .str ['\u005e']), ("Br6", .str ['\u0026']),
                    ("Br5", .str ['\u002a']), ("Br4", .str ['\u0029']),
                    ("Br3", .str ['\u0028']), ("Br2", .str ['\u005f']),
                    ("Br1", .str ['\u002b']), ("Cl1", .str ['\u0630']),
                    ("Cl2", .str ['\u0636']), ("Cl3", .str ['\u064f']),
                    ("Cl4", .str ['\u064c']), ("Cl5", .str ['\u0651']),
                    ("Cr7", .str ['\u0627', '\u0655']), ("Cr6", .str ['\u063a']),
                    ("Cr5", .str ['\u00f7']), ("Cr4", .str ['\u0648', '\u0654']),
                    ("Cr3", .str ['\u061b']), ("Cr2", .str ['\u007d']),
                    ("Cr1", .str ['\u007b']), ("Dl1", .str ['\u0650']),
                    ("Dl2", .str ['\u064d']), ("Dl3", .str ['\u064e']),
                    ("Dl4", .str ['\u064b']), ("Dl5", .str ['\u0627', '\u0653']),
                    ("Dr7", .str ['\u0627', '\u0654']), ("Dr6", .str ['\u0640']),
                    ("Dr5", .str ['\u00d7']), ("Dr4", .str ['\u002c']),
                    ("Dr3", .str ['\u003a']), ("Dr2", .str ['\u0022']),
                    ("El3", .str ['\u0652']), ("El4", .str ['\u0638']),
                    ("El5", .str ['\u0632']), ("El6", .str ['\u2026']),
                    ("Er5", .str ['\u00bb']), ("Er4", .str ['\u00ab']),
                    ("Er3", .str ['\u003e']), ("Er2", .str ['\u003c']), ("Er1", .str ['\u061f'])] },
      { modifier := [["Fr_altgr"]]
        layout := ofPairs [("Bl2", .str ['\u0661']), ("Bl3", .str ['\u0662']),
                    ("Bl4", .str ['\u0663']), ("Bl5", .str ['\u0664']),
                    ("Bl6", .str ['\u0665']), ("Bl7", .str ['\u0666']),
                    ("Br6", .str ['\u0667']), ("Br5", .str ['\u0668']),
                    ("Br4", .str ['\u0669']), ("Br3", .str ['\u0660']),
                    ("Br1", .str ['\u003d', '\u0338']), ("Cl5", .str ['\u06a4']),
                    ("Dl4", .str ['\u067e']), ("Dl5", .str ['\u0670']),
                    ("Dr7", .str ['\u0671']), ("Dr5", .str ['\u066b']),
                    ("Dr3", .str ['\u06af', '\u200e']), ("Dr2", .str ['\u27e9']),
                    ("Dr1", .str ['\u27e8']), ("El2", .str ['\u203a']),
                    ("El3", .str ['\u2039']), ("El5", .str ['\u0698']),
                    ("Er4", .str ['\u0686']), ("Er1", .str ['\u066d'])] },
      { modifier := [["Fr_altgr", "El_shift"], ["Fr_altgr", "Er_shift"]]
        layout := ofPairs [("Bl6", .str ['\u2030']), ("Br2", .str ['\u2011']),
                    ("Br1", .str ['\u2248']), ("Cl1", .str ['\u2066']),
                    ("Cl2", .str ['\u2067']), ("Cl3", .str ['\u2068']),
                    ("Cl4", .str ['\u2069']), ("Cr7", .str ['\u202a']),
                    ("Cr6", .str ['\u202b']), ("Cr5", .str ['\u202c']),
                    ("Cr3", .str ['\u200e']), ("Cr2", .str ['\u200f']),
                    ("Cr1", .str ['\u061c']), ("Dr2", .str ['\u200d']),
                    ("Dr1", .str ['\u202f']), ("Er1", .str ['\u200c'])] } ]

/-- `lulua/data/layouts/ar-idlebi.yaml`. -/
def arIdlebi : LayoutData where
  name := "ar-idlebi"
  layout :=
    [ { modifier := [[]]
        layout := ofPairs [("Bl1", .str ['\u0040']), ("Bl2", .str ['\u0661']),
                    ("Bl3", .str ['\u0662']), ("Bl4", .str ['\u0663']),
                    ("Bl5", .str ['\u0664']), ("Bl6", .str ['\u0665']),
                    ("Bl7", .str ['\u0666']), ("Br6", .str ['\u0667']),
                    ("Br5", .str ['\u0668']), ("Br4", .str ['\u0669']),
                    ("Br3", .str ['\u0660']), ("Br2", .str ['\u005f']),
                    ("Cl_tab", .str ['\u0009']), ("Cl1", .str ['\u0651', '\u064e']),
                    ("Cl2", .str ['\u0650']), ("Cl3", .str ['\u064e']),
                    ("Cl4", .str ['\u064f']), ("Cl5", .str ['\u0637']),
                    ("Cr7", .str ['\u0635']), ("Cr6", .str ['\u0641']),
                    ("Cr5", .str ['\u0627']), ("Cr4", .str ['\u064a']),
                    ("Cr3", .str ['\u0634']), ("Cr2", .str ['\u0633']),
                    ("Cr1", .str ['\u003a']), ("CD_ret", .str ['\u000a']),
                    ("Dl1", .str ['\u0646']), ("Dl2", .str ['\u062a']),
                    ("Dl3", .str ['\u0639']), ("Dl4", .str ['\u0645']),
                    ("Dl5", .str ['\u0628']), ("Dr7", .str ['\u0627', '\u0655']),
                    ("Dr6", .str ['\u0644']), ("Dr5", .str ['\u0647']),
                    ("Dr4", .str ['\u0631']), ("Dr3", .str ['\u0648']),
                    ("Dr2", .str ['\u0649']), ("Dr1", .str ['\u002e']),
                    ("El1", .str ['\u0652']), ("El2", .str ['\u0642']),
                    ("El3", .str ['\u0627', '\u0654']), ("El4", .str ['\u062c']),
                    ("El5", .str ['\u062d']), ("El6", .str ['\u062e']),
                    ("Er5", .str ['\u0630']), ("Er4", .str ['\u0643']),
                    ("Er3", .str ['\u062f']), ("Er2", .str ['\u0629']),
                    ("Er1", .str ['\u063a']), ("Fl_space", .str ['\u0020']),
                    ("Fr_space", .str ['\u0020'])] },
      { modifier := [["El_shift"], ["Er_shift"]]
        layout := ofPairs [("Bl1", .str ['\u005e']), ("Bl2", .str ['\u0021']),
                    ("Bl3", .str ['\u0022']), ("Bl4", .str ['\u0023']),
                    ("Bl6", .str ['\u066a']), ("Bl7", .str ['\u0026']),
                    ("Br6", .str ['\u0027']), ("Br5", .str ['\u0028']),
                    ("Br4", .str ['\u0029']), ("Br2", .str ['\u003d']),
                    ("Cl1", .str ['\u0632']), ("Cl2", .str ['\u0651', '\u064d']),
                    ("Cl3", .str ['\u064b']), ("Cl4", .str ['\u064c']),
                    ("Cl5", .str ['\u0638']), ("Cr7", .str ['\u0636']),
                    ("Cr5", .str ['\u0651', '\u0650']), ("Cr3", .str ['\u005b']),
                    ("Cr2", .str ['\u005d']), ("Cr1", .str ['\u003c']),
                    ("CD_ret", .str ['\u000a']), ("Dl1", .str ['\u0621']),
                    ("Dl2", .str ['\u062b']), ("Dl3", .str ['\u0651', '\u064c']),
                    ("Dr7", .str ['\u0648', '\u0654']), ("Dr6", .str ['\u007b']),
                    ("Dr5", .str ['\u007d']), ("Dr4", .str ['\u005c']),
                    ("Dr3", .str ['\u002f']), ("Dr2", .str ['\u064d']),
                    ("Dr1", .str ['\u003e']), ("El1", .str ['\u0651', '\u064f']),
                    ("El3", .str ['\u064a', '\u0654']), ("Er4", .str ['\u061b']),
                    ("Er3", .str ['\u0627', '\u0653']), ("Er2", .str ['\u007c']),
                    ("Er1", .str ['\u002a'])] } ]

/-- `lulua/data/layouts/ar-khorshid.yaml`. -/
def arKhorshid : LayoutData where
  name := "ar-khorshid"
  layout :=
    [ { modifier := [[]]
        layout := ofPairs [("Bl1", .str ['\u0621']), ("Bl2", .str ['1']), ("Bl3", .str ['2']),
                    ("Bl4", .str ['3']), ("Bl5", .str ['4']), ("Bl6", .str ['5']),
                    ("Bl7", .str ['6']), ("Br6", .str ['7']), ("Br5", .str ['8']),
                    ("Br4", .str ['9']), ("Br3", .str ['0']), ("Br2", .str ['\u002d']),
                    ("Br1", .str ['\u003d']), ("Cl1", .str ['\u0641']),
                    ("Cl2", .str ['\u064a', '\u0654']), ("Cl3", .str ['\u0634']),
                    ("Cl4", .str ['\u0644', '\u0627']), ("Cl5", .str ['\u0637']),
                    ("Cr7", .str ['\u0648', '\u0654']), ("Cr6", .str ['\u062b']),
                    ("Cr5", .str ['\u0633']), ("Cr4", .str ['\u0635']),
                    ("Cr3", .str ['\u062c']), ("Cr2", .str ['\u062e']),
                    ("Cr1", .str ['\u063a']), ("CD_ret", .str ['\u000a']),
                    ("Dl1", .str ['\u0632']), ("Dl2", .str ['\u0644']),
                    ("Dl3", .str ['\u0645']), ("Dl4", .str ['\u0646']),
                    ("Dl5", .str ['\u0630']), ("Dr7", .str ['\u0647']),
                    ("Dr6", .str ['\u0627']), ("Dr5", .str ['\u0648']),
                    ("Dr4", .str ['\u064a']), ("Dr3", .str ['\u0639']),
                    ("Dr2", .str ['\u0642']), ("El2", .str ['\u0628']),
                    ("El3", .str ['\u062d']), ("El4", .str ['\u062a']),
                    ("El5", .str ['\u062f']), ("El6", .str ['\u0631']),
                    ("Er5", .str ['\u0649']), ("Er4", .str ['\u0629']),
                    ("Er3", .str ['\u0643']), ("Er2", .str ['\u0636']),
                    ("Er1", .str ['\u0638']), ("Fl_space", .str ['\u0020']),
                    ("Fr_space", .str ['\u0020'])] },
      { modifier := [["El_shift"], ["Er_shift"]]
        layout := ofPairs [("Bl2", .str ['\u0021']), ("Bl3", .str ['\u0040']),
                    ("Bl4", .str ['\u0023']), ("Bl5", .str ['\u0024']),
                    ("Bl6", .str ['\u0025']), ("Bl7", .str ['\u005e']),
                    ("Br6", .str ['\u0026']), ("Br5", .str ['\u002a']),
                    ("Br4", .str ['\u0028']), ("Br3", .str ['\u0029']),
                    ("Br2", .str ['\u005f']), ("Br1", .str ['\u002b'])] } ]

/-- `lulua/data/layouts/ar-linux.yaml`. -/
def arLinux : LayoutData where
  name := "ar-linux"
  layout :=
    [ { modifier := [[]]
        layout := ofPairs [("Bl1", .str ['\u0630']), ("Bl2", .str ['\u0661']),
                    ("Bl3", .str ['\u0662']), ("Bl4", .str ['\u0663']),
                    ("Bl5", .str ['\u0664']), ("Bl6", .str ['\u0665']),
                    ("Bl7", .str ['\u0666']), ("Br6", .str ['\u0667']),
                    ("Br5", .str ['\u0668']), ("Br4", .str ['\u0669']),
                    ("Br3", .str ['\u0660']), ("Br2", .str ['\u002d']),
                    ("Br1", .str ['\u003d']), ("Cl_tab", .str ['\u0009']),
                    ("Cl1", .str ['\u0636']), ("Cl2", .str ['\u0635']),
                    ("Cl3", .str ['\u062b']), ("Cl4", .str ['\u0642']),
                    ("Cl5", .str ['\u0641']), ("Cr7", .str ['\u063a']),
                    ("Cr6", .str ['\u0639']), ("Cr5", .str ['\u0647']),
                    ("Cr4", .str ['\u062e']), ("Cr3", .str ['\u062d']),
                    ("Cr2", .str ['\u062c']), ("Cr1", .str ['\u062f']),
                    ("CD_ret", .str ['\u000a']), ("Dl1", .str ['\u0634']),
                    ("Dl2", .str ['\u0633']), ("Dl3", .str ['\u064a']),
                    ("Dl4", .str ['\u0628']), ("Dl5", .str ['\u0644']),
                    ("Dr7", .str ['\u0627']), ("Dr6", .str ['\u062a']),
                    ("Dr5", .str ['\u0646']), ("Dr4", .str ['\u0645']),
                    ("Dr3", .str ['\u0643']), ("Dr2", .str ['\u0637']),
                    ("Dr1", .str ['\u005c']), ("El1", .str ['\u007c']),
                    ("El2", .str ['\u064a', '\u0654']), ("El3", .str ['\u0621']),
                    ("El4", .str ['\u0648', '\u0654']), ("El5", .str ['\u0631']),
                    ("El6", .str ['\u0644', '\u0627']), ("Er5", .str ['\u0649']),
                    ("Er4", .str ['\u0629']), ("Er3", .str ['\u0648']),
                    ("Er2", .str ['\u0632']), ("Er1", .str ['\u0638']),
                    ("Fl_space", .str ['\u0020']), ("Fr_space", .str ['\u0020'])] },
      { modifier := [["El_shift"], ["Er_shift"]]
        layout := ofPairs [("Bl1", .str ['\u0651']), ("Bl2", .str ['\u0021']),
                    ("Bl3", .str ['\u0040']), ("Bl4", .str ['\u0023']),
                    ("Bl5", .str ['\u0024']), ("Bl6", .str ['\u066a']),
                    ("Bl7", .str ['\u005e']), ("Br6", .str ['\u0026']),
                    ("Br5", .str ['\u002a']), ("Br4", .str ['\u0029']),
                    ("Br3", .str ['\u0028']), ("Br2", .str ['\u005f']),
                    ("Br1", .str ['\u002b']), ("Cl1", .str ['\u064e']),
                    ("Cl2", .str ['\u064b']), ("Cl3", .str ['\u064f']),
                    ("Cl4", .str ['\u064c']), ("Cl5", .str ['\u0644', '\u0627', '\u0655']),
                    ("Cr7", .str ['\u0627', '\u0655']), ("Cr6", .str ['\u0060']),
                    ("Cr5", .str ['\u00f7']), ("Cr4", .str ['\u00d7']),
                    ("Cr3", .str ['\u061b']), ("Cr2", .str ['\u003c']),
                    ("Cr1", .str ['\u003e']), ("CD_ret", .str ['\u000a']),
                    ("Dl1", .str ['\u0650']), ("Dl2", .str ['\u064d']),
                    ("Dl3", .str ['\u005d']), ("Dl4", .str ['\u005b']),
                    ("Dl5", .str ['\u0644', '\u0627', '\u0654']),
                    ("Dr7", .str ['\u0627', '\u0654']), ("Dr6", .str ['\u0640']),
                    ("Dr5", .str ['\u060c']), ("Dr4", .str ['\u002f']),
                    ("Dr3", .str ['\u003a']), ("Dr2", .str ['\u0022']),
                    ("Dr1", .str ['\u2026']), ("El1", .str ['\u00a6']),
                    ("El2", .str ['\u007e']), ("El3", .str ['\u0652']),
                    ("El4", .str ['\u007d']), ("El5", .str ['\u007b']),
                    ("El6", .str ['\u0644', '\u0627', '\u0653']),
                    ("Er5", .str ['\u0627', '\u0653']), ("Er4", .str ['\u0027']),
                    ("Er3", .str ['\u002c']), ("Er2", .str ['\u002e']), ("Er1", .str ['\u061f'])] } ]

/-- `lulua/data/layouts/ar-lulua.yaml`. -/
def arLulua : LayoutData where
  name := "ar-lulua"
  layout :=
    [ { modifier := [[]]
        layout := ofPairs [("Bl2", .str ['\u0661']), ("Bl3", .str ['\u0662']),
                    ("Bl4", .str ['\u0663']), ("Bl5", .str ['\u0664']),
                    ("Bl6", .str ['\u0665']), ("Bl7", .str ['\u0666']),
                    ("Br6", .str ['\u0667']), ("Br5", .str ['\u0668']),
                    ("Br4", .str ['\u0669']), ("Br3", .str ['\u0660']),
                    ("Br_bs", .str ['\u0008']), ("Cl_tab", .str ['\u0009']),
                    ("Cl1", .str ['\u062b']), ("Cl2", .str ['\u0637']),
                    ("Cl3", .str ['\u0641']), ("Cl4", .str ['\u0629']),
                    ("Cl5", .str ['\u0654']), ("Cr7", .str ['\u0642']),
                    ("Cr6", .str ['\u062f']), ("Cr5", .str ['\u0639']),
                    ("Cr4", .str ['\u062d']), ("Cr3", .str ['\u0636']),
                    ("Cr2", .str ['\u0621']), ("Cr1", .str ['\u0638']),
                    ("CD_ret", .str ['\u000a']), ("Dl1", .str ['\u0628']),
                    ("Dl2", .str ['\u0645']), ("Dl3", .str ['\u0627']),
                    ("Dl4", .str ['\u0648']), ("Dl5", .str ['\u062a']),
                    ("Dr7", .str ['\u0631']), ("Dr6", .str ['\u0644']),
                    ("Dr5", .str ['\u064a']), ("Dr4", .str ['\u0646']),
                    ("Dr3", .str ['\u0633']), ("Dr2", .str ['\u0635']),
                    ("El2", .str ['\u0630']), ("El3", .str ['\u0649']),
                    ("El4", .str ['\u062c']), ("El5", .str ['\u0634']),
                    ("El6", .str ['\u0655']), ("Er5", .str ['\u0647']),
                    ("Er4", .str ['\u0632']), ("Er3", .str ['\u0643']),
                    ("Er2", .str ['\u062e']), ("Er1", .str ['\u063a']),
                    ("Fl_space", .str ['\u0020']), ("Fr_space", .str ['\u0020'])] },
      { modifier := [["El_shift"], ["Er_shift"]]
        layout := ofPairs [("Bl5", .str ['\u0024']), ("Bl6", .str ['\u0026']),
                    ("Br6", .str ['\u007e']), ("Br5", .str ['\u005e']),
                    ("Br4", .str ['\u005c']), ("Cl1", .str ['\u0040']),
                    ("Cl2", .str ['\u0022']), ("Cl3", .str ['\u005d']),
                    ("Cl4", .str ['\u0029']), ("Cl5", .str ['\u007d']),
                    ("Cr7", .str ['\u007b']), ("Cr6", .str ['\u0028']),
                    ("Cr5", .str ['\u005b']), ("Cr4", .str ['\u002a']),
                    ("Cr3", .str ['\u2026']), ("Cr2", .str ['\u003f']),
                    ("Cr1", .str ['\u0025']), ("Dl1", .str ['\u002d']),
                    ("Dl2", .str ['\u061b']), ("Dl3", .str ['\u003a']),
                    ("Dl4", .str ['\u061f']), ("Dl5", .str ['\u00bb']),
                    ("Dr7", .str ['\u00ab']), ("Dr6", .str ['\u002e']),
                    ("Dr5", .str ['\u060c']), ("Dr4", .str ['\u0021']),
                    ("Dr3", .str ['\u007c']), ("Dr2", .str ['\u005f']),
                    ("El2", .str ['\u0060']), ("El3", .str ['\u002b']),
                    ("El4", .str ['\u003e']), ("El5", .str ['\u0027']),
                    ("El6", .str ['\u203a']), ("Er5", .str ['\u2039']),
                    ("Er4", .str ['\u003d']), ("Er3", .str ['\u003c']),
                    ("Er2", .str ['\u0023']), ("Er1", .str ['\u003b'])] },
      { modifier := [["Dl_caps"], ["Dr1"]]
        layout := ofPairs [("Cl3", .str ['\u0670']), ("Cl4", .str ['\u0671']),
                    ("Cr6", .str ['\u0640']), ("Cr5", .str ['\u064c']),
                    ("Dl2", .str ['\u064d']), ("Dl3", .str ['\u0651']),
                    ("Dl4", .str ['\u0650']), ("Dl5", .str ['\u0653']),
                    ("Dr7", .str ['\u064b']), ("Dr6", .str ['\u064f']),
                    ("Dr5", .str ['\u064e']), ("Dr4", .str ['\u0652'])] },
      { modifier := [["Fr_altgr"], ["El1"]]
        layout := ofPairs [("Cl1", .str ['\u0663']), ("Cl2", .str ['\u0662']),
                    ("Cl3", .str ['\u0661']), ("Cl4", .str ['\u0660']),
                    ("Cl5", .str ['\u066a']), ("Dl1", .str ['\u0667']),
                    ("Dl2", .str ['\u0666']), ("Dl3", .str ['\u0665']),
                    ("Dl4", .str ['\u0664']), ("Dl5", .str ['\u2212']),
                    ("El2", .str ['\u066c']), ("El3", .str ['\u066b']),
                    ("El4", .str ['\u0669']), ("El5", .str ['\u0668']),
                    ("El6", .str ['\u0609']), ("Cr2", .str ['\u2067']),
                    ("Cr1", .str ['\u2066']), ("Dr2", .str ['\u2069'])] } ]

/-- `lulua/data/layouts/ar-malas.yaml`. -/
def arMalas : LayoutData where
  name := "ar-malas"
  layout :=
    [ { modifier := [[]]
        layout := ofPairs [("Bl2", .str ['1']), ("Bl3", .str ['2']), ("Bl4", .str ['3']),
                    ("Bl5", .str ['4']), ("Bl6", .str ['5']), ("Bl7", .str ['6']),
                    ("Br6", .str ['7']), ("Br5", .str ['8']), ("Br4", .str ['9']),
                    ("Br3", .str ['0']), ("Br2", .str ['\u002d']), ("Br1", .str ['\u003d']),
                    ("Cl_tab", .str ['\u0009']), ("Cl1", .str ['\u0642']),
                    ("Cl2", .str ['\u063a']), ("Cl3", .str ['\u0639']),
                    ("Cl4", .str ['\u064a']), ("Cl5", .str ['\u0629']),
                    ("Cr7", .str ['\u0641']), ("Cr6", .str ['\u0637']),
                    ("Cr5", .str ['\u0631']), ("Cr4", .str ['\u0635']),
                    ("Cr3", .str ['\u0628']), ("Cr2", .str ['\u0634']),
                    ("Cr1", .str ['\u0636']), ("CD_ret", .str ['\u000a']),
                    ("Dl1", .str ['\u0647']), ("Dl2", .str ['\u062c']),
                    ("Dl3", .str ['\u0643']), ("Dl4", .str ['\u0627']),
                    ("Dl5", .str ['\u0648']), ("Dr7", .str ['\u062a']),
                    ("Dr6", .str ['\u062f']), ("Dr5", .str ['\u0644']),
                    ("Dr4", .str ['\u0646']), ("Dr3", .str ['\u0645']),
                    ("Dr2", .str ['\u0633']), ("El1", .str ['\u005c']),
                    ("El2", .str ['\u062e']), ("El3", .str ['\u0649']),
                    ("El4", .str ['\u0627', '\u0655']), ("El5", .str ['\u0627', '\u0654']),
                    ("El6", .str ['\u062d']), ("Er5", .str ['\u064a', '\u0654']),
                    ("Er4", .str ['\u0632']), ("Er3", .str ['\u002e']),
                    ("Er2", .str ['\u062b']), ("Er1", .str ['\u0630']),
                    ("Fl_space", .str ['\u0020']), ("Fr_space", .str ['\u0020'])] },
      { modifier := [["El_shift"], ["Er_shift"]]
        layout := ofPairs [("Bl2", .str ['\u0021']), ("Bl3", .str ['\u0040']),
                    ("Bl4", .str ['\u0023']), ("Bl5", .str ['\u0024']),
                    ("Bl6", .str ['\u0025']), ("Bl7", .str ['\u005e']),
                    ("Br6", .str ['\u0026']), ("Br5", .str ['\u002a']),
                    ("Br4", .str ['\u0028']), ("Br3", .str ['\u0029']),
                    ("Br2", .str ['\u005f']), ("Br1", .str ['\u002b']),
                    ("Cl_tab", .str ['\u0009']), ("Cl1", .str ['\u064e']),
                    ("Cl2", .str ['\u064b']), ("Cl3", .str ['\u064f']),
                    ("Cl4", .str ['\u064c']), ("Cl5", .str ['\u0651']),
                    ("Cr6", .str ['\u0638']), ("Cr5", .str ['\u00f7']),
                    ("Cr4", .str ['\u00d7']), ("Cr3", .str ['\u061b']),
                    ("Cr2", .str ['\u003e']), ("Cr1", .str ['\u003c']),
                    ("CD_ret", .str ['\u000a']), ("Dl1", .str ['\u0650']),
                    ("Dl2", .str ['\u064d']), ("Dl3", .str ['\u005b']),
                    ("Dl4", .str ['\u005d']), ("Dl5", .str ['\u0648', '\u0654']),
                    ("Dr6", .str ['\u0640']), ("Dr5", .str ['\u060c']),
                    ("Dr4", .str ['\u002f']), ("Dr3", .str ['\u003a']),
                    ("Dr2", .str ['\u0022']), ("El1", .str ['\u007c']),
                    ("El2", .str ['\u007e']), ("El3", .str ['\u0652']),
                    ("El4", .str ['\u0627', '\u0653']), ("El5", .str ['\u0621']),
                    ("El6", .str ['\u007b']), ("Er5", .str ['\u007d']),
                    ("Er4", .str ['\u2018']), ("Er3", .str ['\u2019']),
                    ("Er2", .str ['\u002c']), ("Er1", .str ['\u061f']),
                    ("Fl_space", .str ['\u0020']), ("Fr_space", .str ['\u0020'])] } ]

/-- `lulua/data/layouts/ar-osman.yaml`. -/
def arOsman : LayoutData where
  name := "ar-osman"
  layout :=
    [ { modifier := [[]]
        layout := ofPairs [("Bl1", .str ['\u0648', '\u0654']), ("Bl2", .str ['1']),
                    ("Bl3", .str ['2']), ("Bl4", .str ['3']), ("Bl5", .str ['4']),
                    ("Bl6", .str ['5']), ("Bl7", .str ['6']), ("Br6", .str ['7']),
                    ("Br5", .str ['8']), ("Br4", .str ['9']), ("Br3", .str ['0']),
                    ("Br2", .str ['\u002d']), ("Br1", .str ['\u003d']),
                    ("Cl1", .str ['\u0638']), ("Cl2", .str ['\u0636']),
                    ("Cl3", .str ['\u0635']), ("Cl4", .str ['\u0642']),
                    ("Cl5", .str ['\u0641']), ("Cr7", .str ['\u063a']),
                    ("Cr6", .str ['\u0639']), ("Cr5", .str ['\u0647']),
                    ("Cr4", .str ['\u062d']), ("Cr3", .str ['\u062c']),
                    ("Cr2", .str ['\u062e']), ("Cr1", .str ['\u0621']),
                    ("CD_ret", .str ['\u000a']), ("Dl1", .str ['\u0637']),
                    ("Dl2", .str ['\u062b']), ("Dl3", .str ['\u062a']),
                    ("Dl4", .str ['\u0628']), ("Dl5", .str ['\u0644']),
                    ("Dr7", .str ['\u0627']), ("Dr6", .str ['\u0646']),
                    ("Dr5", .str ['\u0645']), ("Dr4", .str ['\u0648']),
                    ("Dr3", .str ['\u0633']), ("Dr2", .str ['\u0634']),
                    ("El2", .str ['\u064a', '\u0654']), ("El3", .str ['\u0630']),
                    ("El4", .str ['\u062f']), ("El5", .str ['\u0644', '\u0627']),
                    ("El6", .str ['\u064a']), ("Er5", .str ['\u0649']),
                    ("Er4", .str ['\u0631']), ("Er3", .str ['\u0632']),
                    ("Er2", .str ['\u0643']), ("Er1", .str ['\u0629']),
                    ("Fl_space", .str ['\u0020']), ("Fr_space", .str ['\u0020'])] },
      { modifier := [["El_shift"], ["Er_shift"]]
        layout := ofPairs [("Bl2", .str ['\u0021']), ("Bl3", .str ['\u0040']),
                    ("Bl4", .str ['\u0023']), ("Bl5", .str ['\u0024']),
                    ("Bl6", .str ['\u0025']), ("Bl7", .str ['\u005e']),
                    ("Br6", .str ['\u0026']), ("Br5", .str ['\u002a']),
                    ("Br4", .str ['\u0028']), ("Br3", .str ['\u0029']),
                    ("Br2", .str ['\u005f']), ("Br1", .str ['\u002b']),
                    ("Cl1", .str ['\u064e']), ("Cl2", .str ['\u064b']),
                    ("Cl3", .str ['\u064f']), ("Cl4", .str ['\u064c']),
                    ("Cl5", .str ['\u0644', '\u0627', '\u0655']),
                    ("Cr7", .str ['\u0627', '\u0655']), ("Cr6", .str ['\u0060']),
                    ("Cr5", .str ['\u00f7']), ("Cr4", .str ['\u00d7']),
                    ("Cr3", .str ['\u061b']), ("Cr2", .str ['\u003e']),
                    ("Cr1", .str ['\u003c']), ("CD_ret", .str ['\u000a']),
                    ("Dl1", .str ['\u0650']), ("Dl2", .str ['\u064d']),
                    ("Dl3", .str ['\u005b']), ("Dl4", .str ['\u005d']),
                    ("Dl5", .str ['\u0644', '\u0627', '\u0654']),
                    ("Dr7", .str ['\u0627', '\u0654']), ("Dr6", .str ['\u0640']),
                    ("Dr5", .str ['\u060c']), ("Dr4", .str ['\u002f']),
                    ("Dr3", .str ['\u003a']), ("Dr2", .str ['\u0022']),
                    ("El2", .str ['\u007e']), ("El3", .str ['\u0652']),
                    ("El4", .str ['\u007b']), ("El5", .str ['\u007d']),
                    ("El6", .str ['\u0644', '\u0627', '\u0653']),
                    ("Er5", .str ['\u0627', '\u0653']), ("Er4", .str ['\u0027']),
                    ("Er3", .str ['\u00f7']), ("Er2", .str ['\u00d7']), ("Er1", .str ['\u061b'])] } ]

/-- `lulua/data/layouts/ar-osx.yaml`. -/
def arOsx : LayoutData where
  name := "ar-osx"
  layout :=
    [ { modifier := [[]]
        layout := ofPairs [("Bl1", .str ['\u00a7']), ("Bl2", .str ['\u0661']),
                    ("Bl3", .str ['\u0662']), ("Bl4", .str ['\u0663']),
                    ("Bl5", .str ['\u0664']), ("Bl6", .str ['\u0665']),
                    ("Bl7", .str ['\u0666']), ("Br6", .str ['\u0667']),
                    ("Br5", .str ['\u0668']), ("Br4", .str ['\u0669']),
                    ("Br3", .str ['\u0660']), ("Br2", .str ['\u002d']),
                    ("Br1", .str ['\u003d']), ("Br_bs", .str ['\u0008']),
                    ("Cl_tab", .str ['\u0009']), ("Cl1", .str ['\u0636']),
                    ("Cl2", .str ['\u0635']), ("Cl3", .str ['\u062b']),
                    ("Cl4", .str ['\u0642']), ("Cl5", .str ['\u0641']),
                    ("Cr7", .str ['\u063a']), ("Cr6", .str ['\u0639']),
                    ("Cr5", .str ['\u0647']), ("Cr4", .str ['\u062e']),
                    ("Cr3", .str ['\u062d']), ("Cr2", .str ['\u062c']),
                    ("Cr1", .str ['\u0629']), ("CD_ret", .str ['\u000a']),
                    ("Dl1", .str ['\u0634']), ("Dl2", .str ['\u0633']),
                    ("Dl3", .str ['\u064a']), ("Dl4", .str ['\u0628']),
                    ("Dl5", .str ['\u0644']), ("Dr7", .str ['\u0627']),
                    ("Dr6", .str ['\u062a']), ("Dr5", .str ['\u0646']),
                    ("Dr4", .str ['\u0645']), ("Dr3", .str ['\u0643']),
                    ("Dr2", .str ['\u061b']), ("Dr1", .str ['\u005c']),
                    ("El1", .str ['\u0640']), ("El2", .str ['\u0638']),
                    ("El3", .str ['\u0637']), ("El4", .str ['\u0630']),
                    ("El5", .str ['\u062f']), ("El6", .str ['\u0632']),
                    ("Er5", .str ['\u0631']), ("Er4", .str ['\u0648']),
                    ("Er3", .str ['\u060c']), ("Er2", .str ['\u002e']),
                    ("Er1", .str ['\u002f']), ("Fl_space", .str ['\u0020']),
                    ("Fr_space", .str ['\u0020'])] },
      { modifier := [["El_shift"], ["Er_shift"]]
        layout := ofPairs [("Bl1", .str ['\u00b1']), ("Bl2", .str ['\u0021']),
                    ("Bl3", .str ['\u0040']), ("Bl4", .str ['\u0023']),
                    ("Bl5", .str ['\u0024']), ("Bl6", .str ['\u0025']),
                    ("Bl7", .str ['\u005e']), ("Br6", .str ['\u0026']),
                    ("Br5", .str ['\u002a']), ("Br4", .str ['\u0029']),
                    ("Br3", .str ['\u0028']), ("Br2", .str ['\u002d']),
                    ("Br1", .str ['\u002b']), ("Cl1", .str ['\u064e']),
                    ("Cl2", .str ['\u064b']), ("Cl3", .str ['\u0650']),
                    ("Cl4", .str ['\u064d']), ("Cl5", .str ['\u064f']),
                    ("Cr7", .str ['\u064c']), ("Cr6", .str ['\u0652']),
                    ("Cr5", .str ['\u0651']), ("Cr4", .str ['\u005d']),
                    ("Cr3", .str ['\u005b']), ("Cr2", .str ['\u007d']),
                    ("Cr1", .str ['\u007b']), ("Dl1", .str ['\u00ab']),
                    ("Dl2", .str ['\u00bb']), ("Dl3", .str ['\u0649']),
                    ("Dr7", .str ['\u0627', '\u0653']), ("Dr3", .str ['\u003a']),
                    ("Dr2", .str ['\u0022']), ("Dr1", .str ['\u007c']),
                    ("El2", .str ['\u0027']), ("El4", .str ['\u064a', '\u0654']),
                    ("El5", .str ['\u0621']), ("El6", .str ['\u0627', '\u0654']),
                    ("Er5", .str ['\u0627', '\u0655']), ("Er4", .str ['\u0648', '\u0654']),
                    ("Er3", .str ['\u003e']), ("Er2", .str ['\u003c']), ("Er1", .str ['\u061f'])] } ]

/-- `lulua/data/layouts/ar-phonetic.yaml`. -/
def arPhonetic : LayoutData where
  name := "ar-phonetic"
  layout :=
    [ { modifier := [[]]
        layout := ofPairs [("Bl2", .str ['\u0027']), ("Bl3", .str ['\u0662']),
                    ("Bl4", .str ['\u0663']), ("Bl5", .str ['\u0664']),
                    ("Bl6", .str ['\u0665']), ("Bl7", .str ['\u0666']),
                    ("Br1", .str ['\u003d']), ("Br2", .str ['\u002d']),
                    ("Br3", .str ['\u0660']), ("Br4", .str ['\u0669']),
                    ("Br5", .str ['\u0668']), ("Br6", .str ['\u0667']),
                    ("Cl1", .str ['\u0642']), ("Cl2", .str ['\u0648']),
                    ("Cl3", .str ['\u0639']), ("Cl4", .str ['\u0631']),
                    ("Cl5", .str ['\u062a']), ("CD_ret", .str ['\u000a']),
                    ("Cr1", .str ['\u005d']), ("Cr2", .str ['\u005b']),
                    ("Cr3", .str ['\u0671']), ("Cr4", .str ['\u064f']),
                    ("Cr5", .str ['\u0650']), ("Cr6", .str ['\u064e']),
                    ("Cr7", .str ['\u064a']), ("Dl1", .str ['\u0627']),
                    ("Dl2", .str ['\u0633']), ("Dl3", .str ['\u062f']),
                    ("Dl4", .str ['\u0641']), ("Dl5", .str ['\u0621']),
                    ("Dr2", .str ['\u0023']), ("Dr3", .str ['\u061b']),
                    ("Dr4", .str ['\u0644']), ("Dr5", .str ['\u0643']),
                    ("Dr6", .str ['\u0630']), ("Dr7", .str ['\u0647']),
                    ("El1", .str ['\u005c']), ("El2", .str ['\u0632']),
                    ("El3", .str ['\u062b']), ("El4", .str ['\u0635']),
                    ("El5", .str ['\u0652']), ("El6", .str ['\u0628']),
                    ("Er1", .str ['\u002f']), ("Er2", .str ['\u002e']),
                    ("Er3", .str ['\u060c']), ("Er4", .str ['\u0645']),
                    ("Er5", .str ['\u0646']), ("Fl_space", .str ['\u0020'])] },
      { modifier := [["El_shift"], ["Er_shift"]]
        layout := ofPairs [("Bl2", .str ['\u0022']), ("Bl3", .str ['\u0040']),
                    ("Bl4", .str ['\u00a3']), ("Bl5", .str ['\u0024']),
                    ("Bl6", .str ['\u0025']), ("Bl7", .str ['\u005e']),
                    ("Br1", .str ['\u002b']), ("Br2", .str ['\u005f']),
                    ("Br3", .str ['\u0029']), ("Br4", .str ['\u0028']),
                    ("Br5", .str ['\u002a']), ("Br6", .str ['\u0026']),
                    ("Cl1", .str ['\u064a', '\u0654']), ("Cl2", .str ['\u0648', '\u0654']),
                    ("Cl3", .str ['\u0670']), ("Cl4", .str ['\u0653']),
                    ("Cl5", .str ['\u0637']), ("Cr1", .str ['\u007d']),
                    ("Cr2", .str ['\u007b']), ("Cr3", .str ['\u0627', '\u0653']),
                    ("Cr4", .str ['\u064c']), ("Cr5", .str ['\u064d']),
                    ("Cr6", .str ['\u064b']), ("Cr7", .str ['\u0649']),
                    ("Dl1", .str ['\u0627', '\u0654']), ("Dl2", .str ['\u0634']),
                    ("Dl3", .str ['\u0636']), ("Dl4", .str ['\u0642']),
                    ("Dl5", .str ['\u063a']), ("Dr2", .str ['\u007e']),
                    ("Dr3", .str ['\u003a']), ("Dr4", .str ['\u0627', '\u0655']),
                    ("Dr5", .str ['\u062e']), ("Dr6", .str ['\u062c']),
                    ("Dr7", .str ['\u062d']), ("El1", .str ['\u007c']),
                    ("El2", .str ['\u0638']), ("El3", .str ['\u0629']),
                    ("El4", .str ['\u0654']), ("El5", .str ['\u0651']),
                    ("El6", .str ['\u0640']), ("Er1", .str ['\u061f']),
                    ("Er2", .str ['\u003e']), ("Er3", .str ['\u003c']),
                    ("Er4", .str ['\u06e2']), ("Er5", .str ['\u0655']),
                    ("Fl_space", .str ['\u0020']), ("Fr_space", .str ['\u0020'])] },
      { modifier := [["Fr_altgr"]]
        layout := ofPairs [("Bl2", .str ['\u0627', '\u0655']), ("Bl3", .str ['\u274a']),
                    ("Bl4", .str ['\u0610']), ("Bl5", .str ['\u0611']),
                    ("Bl6", .str ['\u0613']), ("Bl7", .str ['\u0612']),
                    ("Br5", .str ['\u0655']), ("Br6", .str ['\u0654']),
                    ("Cl1", .str ['\u06d7']), ("Cl2", .str ['\u06e5']),
                    ("Cl3", .str ['\u06d2']), ("Cl4", .str ['\u0698']),
                    ("Cl5", .str ['\u0615']), ("Cr3", .str ['\ufdfa']),
                    ("Cr5", .str ['\ufe8c']), ("Cr7", .str ['\u06e6']),
                    ("Dl1", .str ['\u0627', '\u0655']), ("Dl2", .str ['\u06dc']),
                    ("Dl3", .str ['\u0636']), ("Dl4", .str ['\u06a4']),
                    ("Dl5", .str ['\u0639']), ("Dr2", .str ['\u06dd']),
                    ("Dr3", .str ['\u061e']), ("Dr4", .str ['\u06d9']),
                    ("Dr5", .str ['\u06aa']), ("Dr6", .str ['\u06da']),
                    ("Dr7", .str ['\ufba9']), ("El1", .str ['\ufdfb']),
                    ("El2", .str ['\ufdfb']), ("El3", .str ['\u06db']),
                    ("El4", .str ['\u06d6']), ("El5", .str ['\u06e8']),
                    ("El6", .str ['\u067e']), ("Er2", .str ['\u00ab']),
                    ("Er3", .str ['\u00bb']), ("Er4", .str ['\ufee3']), ("Er5", .str ['\u06bd'])] } ]

/-- `lulua/data/layouts/ar-qtaish.yaml`. -/
def arQtaish : LayoutData where
  name := "ar-qtaish"
  layout :=
    [ { modifier := [[]]
        layout := ofPairs [("Bl2", .str ['\u0661']), ("Bl3", .str ['\u0662']),
                    ("Bl4", .str ['\u0663']), ("Bl5", .str ['\u0664']),
                    ("Bl6", .str ['\u0665']), ("Bl7", .str ['\u0666']),
                    ("Br6", .str ['\u0667']), ("Br5", .str ['\u0668']),
                    ("Br4", .str ['\u0669']), ("Br3", .str ['\u0660']),
                    ("Cl_tab", .str ['\u0009']), ("Cl1", .str ['\u0642']),
                    ("Cl2", .str ['\u0649']), ("Cl3", .str ['\u0629']),
                    ("Cl4", .str ['\u062f']), ("Cl5", .str ['\u0641']),
                    ("Cr7", .str ['\u0643']), ("Cr6", .str ['\u0635']),
                    ("Cr5", .str ['\u0633']), ("Cr4", .str ['\u062d']),
                    ("Cr3", .str ['\u0630']), ("Cr2", .str ['\u0634']),
                    ("Cr1", .str ['\u062c']), ("CD_ret", .str ['\u000a']),
                    ("Dl1", .str ['\u0631']), ("Dl2", .str ['\u0648']),
                    ("Dl3", .str ['\u0646']), ("Dl4", .str ['\u0644']),
                    ("Dl5", .str ['\u0628']), ("Dr7", .str ['\u062a']),
                    ("Dr6", .str ['\u0627']), ("Dr5", .str ['\u0639']),
                    ("Dr4", .str ['\u064a']), ("Dr3", .str ['\u0645']),
                    ("Dr2", .str ['\u0647']), ("El2", .str ['\u0636']),
                    ("El3", .str ['\u062e']), ("El4", .str ['\u0632']),
                    ("El5", .str ['\u0638']), ("El6", .str ['\u063a']),
                    ("Er5", .str ['\u0627', '\u0654']), ("Er4", .str ['\u0621']),
                    ("Er3", .str ['\u0637']), ("Er2", .str ['\u062b']),
                    ("Er1", .str ['\u064a', '\u0654']), ("Fl_space", .str ['\u0020']),
                    ("Fr_space", .str ['\u0020'])] },
      { modifier := [["El_shift"], ["Er_shift"]]
        layout := ofPairs [("Dl2", .str ['\u0648', '\u0654']), ("Dr6", .str ['\u0627', '\u0653']),
                    ("Er5", .str ['\u0627', '\u0655'])] } ]

/-- `lulua/data/layouts/null.yaml`. -/
def nullLayout : LayoutData where
  name := "None"
  layout :=
    [  ]

/-- All shipped layouts. -/
def layouts : List LayoutData :=
  [arAlramly, arAsmo663, arErgoarabic, arIdlebi, arKhorshid, arLinux, arLulua, arMalas, arOsman,
   arOsx, arPhonetic, arQtaish, nullLayout]

end Lulua.Data
