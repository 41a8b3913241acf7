import Verif.Model.Carpalx

/-!
# The finger map and the parameters of the effort models

Written by `tools/gen_data.py` from `lulua/writer.py` and `lulua/carpalx.py`. Numbers are the
decimal numbers of the source.
-/

namespace Lulua.Data

/-- `defaultFingermap` (`writer.py:28-108`). -/
def fingermap : Dict String (Direction × Finger) :=
  [("Bl1", .left, .little), ("Bl2", .left, .little), ("Bl3", .left, .little),
   ("Bl4", .left, .ring), ("Bl5", .left, .middle), ("Bl6", .left, .index),
   ("Bl7", .left, .index), ("Br6", .right, .index), ("Br5", .right, .index),
   ("Br4", .right, .middle), ("Br3", .right, .ring), ("Br2", .right, .little),
   ("Br1", .right, .little), ("Br_bs", .right, .little), ("Cl_tab", .left, .little),
   ("Cl1", .left, .little), ("Cl2", .left, .ring), ("Cl3", .left, .middle),
   ("Cl4", .left, .index), ("Cl5", .left, .index), ("Cr7", .right, .index),
   ("Cr6", .right, .index), ("Cr5", .right, .middle), ("Cr4", .right, .ring),
   ("Cr3", .right, .little), ("Cr2", .right, .little), ("Cr1", .right, .little),
   ("CD_ret", .right, .little), ("Dl_caps", .left, .little), ("Dl1", .left, .little),
   ("Dl2", .left, .ring), ("Dl3", .left, .middle), ("Dl4", .left, .index),
   ("Dl5", .left, .index), ("Dr7", .right, .index), ("Dr6", .right, .index),
   ("Dr5", .right, .middle), ("Dr4", .right, .ring), ("Dr3", .right, .little),
   ("Dr2", .right, .little), ("Dr1", .right, .little), ("El_shift", .left, .little),
   ("El1", .left, .little), ("El2", .left, .little), ("El3", .left, .ring),
   ("El4", .left, .middle), ("El5", .left, .index), ("El6", .left, .index),
   ("Er5", .right, .index), ("Er4", .right, .index), ("Er3", .right, .middle),
   ("Er2", .right, .ring), ("Er1", .right, .little), ("Er_shift", .right, .little),
   ("Fl_ctrl", .left, .little), ("Fl_fn", .left, .little), ("Fl_win", .left, .thumb),
   ("Fl_alt", .left, .thumb), ("Fl_space", .left, .thumb), ("Fr_space", .right, .thumb),
   ("Fr_altgr", .right, .thumb), ("Fr_win", .right, .thumb), ("Fr_menu", .right, .thumb),
   ("Fr_ctrl", .right, .little)]

/-- `models['mod01']` (`carpalx.py:48-136`). -/
def mod01 : ModelParams where
  kBPS := (711/2000, 6423/10000, 1067/2500)
  k123S := (1, 367/1000, 47/200, 1)
  w0HRF := (0, 1, 818/625, 6487/2500)
  pHand := [(.left, 0), (.right, 0)]
  pRow := [3/2, 1/2, 0, 1, 3/2]
  pFinger :=
    [(.left, [(.thumb, 0), (.index, 0), (.middle, 0), (.ring, 1/2), (.little, 1)]),
     (.right, [(.thumb, 0), (.index, 0), (.middle, 0), (.ring, 1/2), (.little, 1)])]
  fHRF := (1, 3/10, 3/10)
  baselineEffort :=
    [("Bl1", 5), ("Bl2", 5), ("Bl3", 4), ("Bl4", 4), ("Bl5", 4), ("Bl6", 7/2), ("Bl7", 9/2),
     ("Br6", 4), ("Br5", 4), ("Br4", 4), ("Br3", 4), ("Br2", 4), ("Br1", 9/2), ("Cl1", 2),
     ("Cl2", 2), ("Cl3", 2), ("Cl4", 2), ("Cl5", 5/2), ("Cr7", 3), ("Cr6", 2), ("Cr5", 2),
     ("Cr4", 2), ("Cr3", 5/2), ("Cr2", 4), ("Cr1", 6), ("Dl_caps", 2), ("Dl1", 0), ("Dl2", 0),
     ("Dl3", 0), ("Dl4", 0), ("Dl5", 2), ("Dr7", 2), ("Dr6", 0), ("Dr5", 0), ("Dr4", 0),
     ("Dr3", 0), ("Dr2", 2), ("Dr1", 4), ("El_shift", 4), ("El1", 4), ("El2", 2), ("El3", 2),
     ("El4", 2), ("El5", 2), ("El6", 7/2), ("Er5", 2), ("Er4", 2), ("Er3", 2), ("Er2", 2),
     ("Er1", 2), ("Er_shift", 4), ("Fr_altgr", 4)]

/-- `models['salvo']` (`carpalx.py:139-233`). -/
def salvo : ModelParams where
  kBPS := (711/2000, 6423/10000, 1067/2500)
  k123S := (1, 367/1000, 47/200, 1)
  w0HRF := (0, 1, 818/625, 6487/2500)
  pHand := [(.left, 0), (.right, 0)]
  pRow := [3/2, 1/2, 0, 1, 3/2]
  pFinger :=
    [(.left, [(.thumb, 0), (.index, 1 - ((609/100) / (657/100))), (.middle, 1 - ((113/20) / (657/100))),
     (.ring, 1 - ((227/50) / (657/100))), (.little, 1 - ((377/100) / (657/100)))]),
     (.right, [(.thumb, 0), (.index, 1 - ((657/100) / (657/100))), (.middle, 1 - ((637/100) / (657/100))),
     (.ring, 1 - ((127/25) / (657/100))), (.little, 1 - ((427/100) / (657/100)))])]
  fHRF := (1, 3/10, 3/10)
  baselineEffort :=
    [("Bl1", 5), ("Bl2", 5), ("Bl3", 4), ("Bl4", 4), ("Bl5", 4), ("Bl6", 7/2), ("Bl7", 9/2),
     ("Br6", 4), ("Br5", 4), ("Br4", 4), ("Br3", 4), ("Br2", 4), ("Br1", 9/2), ("Cl1", 2),
     ("Cl2", 2), ("Cl3", 2), ("Cl4", 2), ("Cl5", 23/10), ("Cr7", 3), ("Cr6", 19/10), ("Cr5", 2),
     ("Cr4", 2), ("Cr3", 11/5), ("Cr2", 4), ("Cr1", 6), ("Dl_caps", 2), ("Dl1", 0), ("Dl2", 0),
     ("Dl3", 0), ("Dl4", 0), ("Dl5", 9/5), ("Dr7", 9/5), ("Dr6", 0), ("Dr5", 0), ("Dr4", 0),
     ("Dr3", 0), ("Dr2", 2), ("Dr1", 4), ("El_shift", 4), ("El1", 4), ("El2", 2), ("El3", 2),
     ("El4", 2), ("El5", 2), ("El6", 7/2), ("Er5", 2), ("Er4", 2), ("Er3", 2), ("Er2", 2),
     ("Er1", 2), ("Er_shift", 4), ("Fr_altgr", 4)]

/-- `models` (`carpalx.py:46-234`). -/
def models : List ModelParams := [mod01, salvo]

end Lulua.Data
