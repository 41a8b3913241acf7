import Verif.Model.Keyboard

/-!
# The shipped keyboards

Written by `tools/gen_data.py` from `lulua/data/keyboards/`. Widths are the decimal numbers of the
file.
-/

namespace Lulua.Data

/-- `lulua/data/keyboards/ibmpc105.yaml`. -/
def ibmpc105 : KeyboardData where
  name := "ibmpc105"
  description := "Standard IBM PC 105 key layout (European)"
  rows :=
    [ ([{ name := some "Bl1",
          kind := some "letter",
          width := some (1),
          scancode := some (some [("keyman", .str "K_BKSLASH"), ("macos", .num 50), ("windows", .list [41]), ("xorg", .num 49)]) },
        { name := some "Bl2",
          kind := some "letter",
          width := some (1),
          scancode := some (some [("keyman", .str "K_1"), ("macos", .num 18), ("windows", .list [2]), ("xorg", .num 10)]) },
        { name := some "Bl3",
          kind := some "letter",
          width := some (1),
          scancode := some (some [("keyman", .str "K_2"), ("macos", .num 19), ("windows", .list [3]), ("xorg", .num 11)]) },
        { name := some "Bl4",
          kind := some "letter",
          width := some (1),
          scancode := some (some [("keyman", .str "K_3"), ("macos", .num 20), ("windows", .list [4]), ("xorg", .num 12)]) },
        { name := some "Bl5",
          kind := some "letter",
          width := some (1),
          scancode := some (some [("keyman", .str "K_4"), ("macos", .num 21), ("windows", .list [5]), ("xorg", .num 13)]) },
        { name := some "Bl6",
          kind := some "letter",
          width := some (1),
          scancode := some (some [("keyman", .str "K_5"), ("macos", .num 23), ("windows", .list [6]), ("xorg", .num 14)]) },
        { name := some "Bl7",
          kind := some "letter",
          width := some (1),
          scancode := some (some [("keyman", .str "K_6"), ("macos", .num 22), ("windows", .list [7]), ("xorg", .num 15)]) }],
       [{ name := some "Br6",
          kind := some "letter",
          width := some (1),
          scancode := some (some [("keyman", .str "K_7"), ("macos", .num 26), ("windows", .list [8]), ("xorg", .num 16)]) },
        { name := some "Br5",
          kind := some "letter",
          width := some (1),
          scancode := some (some [("keyman", .str "K_8"), ("macos", .num 28), ("windows", .list [9]), ("xorg", .num 17)]) },
        { name := some "Br4",
          kind := some "letter",
          width := some (1),
          scancode := some (some [("keyman", .str "K_9"), ("macos", .num 25), ("windows", .list [10]), ("xorg", .num 18)]) },
        { name := some "Br3",
          kind := some "letter",
          width := some (1),
          scancode := some (some [("keyman", .str "K_0"), ("macos", .num 29), ("windows", .list [11]), ("xorg", .num 19)]) },
        { name := some "Br2",
          kind := some "letter",
          width := some (1),
          scancode := some (some [("keyman", .str "K_LBRKT"), ("macos", .num 27), ("windows", .list [12]), ("xorg", .num 20)]) },
        { name := some "Br1",
          kind := some "letter",
          width := some (1),
          scancode := some (some [("keyman", .str "K_RBRKT"), ("macos", .num 24), ("windows", .list [13]), ("xorg", .num 21)]) },
        { name := some "Br_bs",
          width := some (7/4),
          scancode := some (some [("keyman", .str "K_BKSP"), ("macos", .num 51), ("windows", .list [14]), ("xorg", .num 22)]) }]),
      ([{ name := some "Cl_tab",
          width := some (7/4),
          scancode := some (some [("keyman", .str "K_TAB"), ("macos", .num 48), ("windows", .list [15]), ("xorg", .num 23)]) },
        { name := some "Cl1",
          kind := some "letter",
          width := some (1),
          scancode := some (some [("keyman", .str "K_Q"), ("macos", .num 12), ("windows", .list [16]), ("xorg", .num 24)]) },
        { name := some "Cl2",
          kind := some "letter",
          width := some (1),
          scancode := some (some [("keyman", .str "K_W"), ("macos", .num 13), ("windows", .list [17]), ("xorg", .num 25)]) },
        { name := some "Cl3",
          kind := some "letter",
          width := some (1),
          scancode := some (some [("keyman", .str "K_E"), ("macos", .num 14), ("windows", .list [18]), ("xorg", .num 26)]) },
        { name := some "Cl4",
          kind := some "letter",
          width := some (1),
          scancode := some (some [("keyman", .str "K_R"), ("macos", .num 15), ("windows", .list [19]), ("xorg", .num 27)]) },
        { name := some "Cl5",
          kind := some "letter",
          width := some (1),
          scancode := some (some [("keyman", .str "K_T"), ("macos", .num 17), ("windows", .list [20]), ("xorg", .num 28)]) }],
       [{ name := some "Cr7",
          kind := some "letter",
          width := some (1),
          scancode := some (some [("keyman", .str "K_Z"), ("macos", .num 16), ("windows", .list [21]), ("xorg", .num 29)]) },
        { name := some "Cr6",
          kind := some "letter",
          width := some (1),
          scancode := some (some [("keyman", .str "K_U"), ("macos", .num 32), ("windows", .list [22]), ("xorg", .num 30)]) },
        { name := some "Cr5",
          kind := some "letter",
          width := some (1),
          scancode := some (some [("keyman", .str "K_I"), ("macos", .num 34), ("windows", .list [23]), ("xorg", .num 31)]) },
        { name := some "Cr4",
          kind := some "letter",
          width := some (1),
          scancode := some (some [("keyman", .str "K_O"), ("macos", .num 31), ("windows", .list [24]), ("xorg", .num 32)]) },
        { name := some "Cr3",
          kind := some "letter",
          width := some (1),
          scancode := some (some [("keyman", .str "K_P"), ("macos", .num 35), ("windows", .list [25]), ("xorg", .num 33)]) },
        { name := some "Cr2",
          kind := some "letter",
          width := some (1),
          scancode := some (some [("keyman", .str "K_COLON"), ("macos", .num 33), ("windows", .list [26]), ("xorg", .num 34)]) },
        { name := some "Cr1",
          kind := some "letter",
          width := some (1),
          scancode := some (some [("keyman", .str "K_EQUAL"), ("macos", .num 30), ("windows", .list [27]), ("xorg", .num 35)]) },
        { name := some "CD_ret",
          kind := some "multi",
          width := some (1),
          scancode := some (some [("keyman", .str "K_ENTER"), ("macos", .num 36), ("windows", .list [28]), ("xorg", .num 36)]),
          span := some 2 }]),
      ([{ name := some "Dl_caps",
          width := some (2),
          scancode := some (some [("keyman", .str "CAPS"), ("macos", .num 57), ("windows", .list [58]), ("xorg", .num 66)]) },
        { name := some "Dl1",
          kind := some "letter",
          width := some (1),
          scancode := some (some [("keyman", .str "K_A"), ("macos", .num 0), ("windows", .list [30]), ("xorg", .num 38)]) },
        { name := some "Dl2",
          kind := some "letter",
          width := some (1),
          scancode := some (some [("keyman", .str "K_S"), ("macos", .num 1), ("windows", .list [31]), ("xorg", .num 39)]) },
        { name := some "Dl3",
          kind := some "letter",
          width := some (1),
          scancode := some (some [("keyman", .str "K_D"), ("macos", .num 2), ("windows", .list [32]), ("xorg", .num 40)]) },
        { name := some "Dl4",
          kind := some "letter",
          width := some (1),
          isMarked := some true,
          scancode := some (some [("keyman", .str "K_F"), ("macos", .num 3), ("windows", .list [33]), ("xorg", .num 41)]) },
        { name := some "Dl5",
          kind := some "letter",
          width := some (1),
          scancode := some (some [("keyman", .str "K_G"), ("macos", .num 5), ("windows", .list [34]), ("xorg", .num 42)]) }],
       [{ name := some "Dr7",
          kind := some "letter",
          width := some (1),
          scancode := some (some [("keyman", .str "K_H"), ("macos", .num 4), ("windows", .list [35]), ("xorg", .num 43)]) },
        { name := some "Dr6",
          kind := some "letter",
          width := some (1),
          isMarked := some true,
          scancode := some (some [("keyman", .str "K_J"), ("macos", .num 38), ("windows", .list [36]), ("xorg", .num 44)]) },
        { name := some "Dr5",
          kind := some "letter",
          width := some (1),
          scancode := some (some [("keyman", .str "K_K"), ("macos", .num 40), ("windows", .list [37]), ("xorg", .num 45)]) },
        { name := some "Dr4",
          kind := some "letter",
          width := some (1),
          scancode := some (some [("keyman", .str "K_L"), ("macos", .num 37), ("windows", .list [38]), ("xorg", .num 46)]) },
        { name := some "Dr3",
          kind := some "letter",
          width := some (1),
          scancode := some (some [("keyman", .str "K_BKQUOTE"), ("macos", .num 41), ("windows", .list [39]), ("xorg", .num 47)]) },
        { name := some "Dr2",
          kind := some "letter",
          width := some (1),
          scancode := some (some [("keyman", .str "K_QUOTE"), ("macos", .num 39), ("windows", .list [40]), ("xorg", .num 48)]) },
        { name := some "Dr1",
          kind := some "letter",
          width := some (1),
          scancode := some (some [("keyman", .str "K_SLASH"), ("windows", .list [43]), ("xorg", .num 51)]) }]),
      ([{ name := some "El_shift",
          width := some (3/2),
          scancode := some (some [("keyman", .str "SHIFT"), ("macos", .num 57), ("windows", .list [42]), ("xorg", .num 50)]) },
        { name := some "El1",
          kind := some "letter",
          width := some (1),
          scancode := some (some [("keyman", .str "K_oE2"), ("windows", .list [86]), ("xorg", .num 94)]) },
        { name := some "El2",
          kind := some "letter",
          width := some (1),
          scancode := some (some [("keyman", .str "K_Y"), ("macos", .num 6), ("windows", .list [44]), ("xorg", .num 52)]) },
        { name := some "El3",
          kind := some "letter",
          width := some (1),
          scancode := some (some [("keyman", .str "K_X"), ("macos", .num 7), ("windows", .list [45]), ("xorg", .num 53)]) },
        { name := some "El4",
          kind := some "letter",
          width := some (1),
          scancode := some (some [("keyman", .str "K_C"), ("macos", .num 8), ("windows", .list [46]), ("xorg", .num 54)]) },
        { name := some "El5",
          kind := some "letter",
          width := some (1),
          scancode := some (some [("keyman", .str "K_V"), ("macos", .num 9), ("windows", .list [47]), ("xorg", .num 55)]) },
        { name := some "El6",
          kind := some "letter",
          width := some (1),
          scancode := some (some [("keyman", .str "K_B"), ("macos", .num 11), ("windows", .list [48]), ("xorg", .num 56)]) }],
       [{ name := some "Er5",
          kind := some "letter",
          width := some (1),
          scancode := some (some [("keyman", .str "K_N"), ("macos", .num 45), ("windows", .list [49]), ("xorg", .num 57)]) },
        { name := some "Er4",
          kind := some "letter",
          width := some (1),
          scancode := some (some [("keyman", .str "K_M"), ("macos", .num 46), ("windows", .list [50]), ("xorg", .num 58)]) },
        { name := some "Er3",
          kind := some "letter",
          width := some (1),
          scancode := some (some [("keyman", .str "K_COMMA"), ("macos", .num 43), ("windows", .list [51]), ("xorg", .num 59)]) },
        { name := some "Er2",
          kind := some "letter",
          width := some (1),
          scancode := some (some [("keyman", .str "K_PERIOD"), ("macos", .num 47), ("windows", .list [52]), ("xorg", .num 60)]) },
        { name := some "Er1",
          kind := some "letter",
          width := some (1),
          scancode := some (some [("keyman", .str "K_HYPHEN"), ("macos", .num 44), ("windows", .list [53]), ("xorg", .num 61)]) },
        { name := some "Er_shift",
          width := some (47/20),
          scancode := some (some [("keyman", .str "SHIFT"), ("macos", .num 60), ("windows", .list [54]), ("xorg", .num 62)]) }]),
      ([{ name := some "Fl_ctrl",
          width := some (7/4),
          scancode := some (some [("keyman", .str "LCTRL"), ("macos", .num 59), ("windows", .list [29]), ("xorg", .num 37)]) },
        { name := some "Fl_win",
          width := some (5/4),
          scancode := some (some [("keyman", .str "K_?5B"), ("macos", .num 55), ("windows", .list [224, 91]), ("xorg", .num 133)]) },
        { name := some "Fl_alt",
          width := some (5/4),
          scancode := some (some [("keyman", .str "LALT"), ("macos", .num 58), ("windows", .list [56]), ("xorg", .num 64)]) },
        { name := some "Fl_space",
          width := some (3),
          scancode := some (some [("keyman", .str "K_SPACE"), ("macos", .num 49), ("windows", .list [57]), ("xorg", .num 65)]) }],
       [{ name := some "Fr_space",
          width := some (3),
          scancode := some (some [("keyman", .str "K_SPACE"), ("macos", .num 49), ("windows", .list [57]), ("xorg", .num 65)]) },
        { name := some "Fr_altgr",
          width := some (5/4),
          scancode := some (some [("keyman", .str "RALT"), ("macos", .num 61), ("windows", .list [224, 56]), ("xorg", .num 108)]) },
        { name := some "Fr_win",
          width := some (5/4),
          scancode := some (some [("keyman", .str "K_?5C"), ("macos", .num 55), ("windows", .list [224, 92]), ("xorg", .num 105)]) },
        { name := some "Fr_menu",
          width := some (5/4),
          scancode := some (some [("keyman", .str "K_?5D"), ("windows", .list [224, 93]), ("xorg", .num 135)]) },
        { name := some "Fr_ctrl",
          width := some (5/4),
          scancode := some (some [("keyman", .str "RCTRL"), ("windows", .list [224, 29]), ("xorg", .num 105)]) }]) ]

end Lulua.Data
