import Verif.Model.Layout

/-!
# The style sheets of pictures

Written by `tools/gen_data.py`.
-/

namespace Lulua.Data

/-- The lines of `data/render-svg.css`. -/
def renderSvgCss : List Text :=
  [['/', '*', ' ', 'i', 'n', 'k', 's', 'c', 'a', 'p', 'e', '-', 'c', 'o', 'm', 'p', 'a', 't', 'i', 'b', 'i', 'l', 'i', 't', 'y', ',', ' ', 'e', 'x', 'p', 'l', 'i', 'c', 'i', 't', 'l', 'y', ' ', 'a', 'p', 'p', 'l', 'y', ' ', 'f', 'o', 'n', 't', ' ', 's', 'e', 't', 't', 'i', 'n', 'g', 's', ' ', 't', 'o', ' ', '.', 'l', 'a', 'b', 'e', 'l', ' ', '*', '/'],
   ['s', 'v', 'g', ',', ' ', '.', 'l', 'a', 'b', 'e', 'l', ' ', '{'],
   ['\t', 'f', 'o', 'n', 't', '-', 'f', 'a', 'm', 'i', 'l', 'y', ':', ' ', '"', 'I', 'B', 'M', ' ', 'P', 'l', 'e', 'x', ' ', 'S', 'a', 'n', 's', ' ', 'A', 'r', 'a', 'b', 'i', 'c', '"', ';'],
   ['\t', 'f', 'o', 'n', 't', '-', 's', 'i', 'z', 'e', ':', ' ', '9', '0', 'p', 'x', ';'],
   ['\t', 'f', 'o', 'n', 't', '-', 'w', 'e', 'i', 'g', 'h', 't', ':', ' ', '4', '0', '0', ';'],
   ['}'],
   ['.', 'u', 'n', 'u', 's', 'e', 'd', ' ', '{'],
   ['\t', 'o', 'p', 'a', 'c', 'i', 't', 'y', ':', ' ', '0', '.', '6', ';'],
   ['}'],
   ['.', 'l', 'a', 'b', 'e', 'l', ' ', '.', 'l', 'a', 'y', 'e', 'r', '-', '1', ' ', '{'],
   ['}'],
   ['.', 'm', 'o', 'd', 'i', 'f', 'i', 'e', 'r', ' ', '.', 'l', 'a', 'b', 'e', 'l', ' ', '.', 'l', 'a', 'y', 'e', 'r', '-', '1', ' ', '{'],
   ['\t', 'f', 'o', 'n', 't', '-', 's', 'i', 'z', 'e', ':', ' ', '8', '0', '%', ';'],
   ['}'],
   ['.', 'l', 'a', 'b', 'e', 'l', ' ', '.', 'l', 'a', 'y', 'e', 'r', '-', '2', ',', ' ', '.', 'l', 'a', 'b', 'e', 'l', ' ', '.', 'l', 'a', 'y', 'e', 'r', '-', '3', ',', ' ', '.', 'l', 'a', 'b', 'e', 'l', ' ', '.', 'l', 'a', 'y', 'e', 'r', '-', '4', ' ', '{'],
   ['\t', 'f', 'o', 'n', 't', '-', 's', 'i', 'z', 'e', ':', ' ', '8', '0', '%', ';'],
   ['\t', 'f', 'o', 'n', 't', '-', 'w', 'e', 'i', 'g', 'h', 't', ':', ' ', '1', '0', '0', ';'],
   ['}'],
   ['.', 'l', 'a', 'b', 'e', 'l', ' ', '.', 'c', 'o', 'n', 't', 'r', 'o', 'l', 'c', 'h', 'a', 'r', ' ', '{'],
   ['\t', 'f', 'o', 'n', 't', '-', 's', 'i', 'z', 'e', ':', ' ', '4', '0', '%', ';'],
   ['\t', 'f', 'o', 'n', 't', '-', 'f', 'a', 'm', 'i', 'l', 'y', ':', ' ', 's', 'a', 'n', 's', '-', 's', 'e', 'r', 'i', 'f', ';'],
   ['}'],
   ['.', 'c', 'a', 'p', ' ', 'r', 'e', 'c', 't', ' ', '{'],
   ['\t', 'f', 'i', 'l', 'l', ':', ' ', '#', 'e', 'e', 'e', '8', 'd', '5', ';'],
   ['}'],
   ['.', 'h', 'i', 'g', 'h', 'l', 'i', 'g', 'h', 't', ' ', 'c', 'i', 'r', 'c', 'l', 'e', ' ', '{'],
   ['\t', 'f', 'i', 'l', 'l', ':', ' ', '#', 'd', 'c', '3', '2', '2', 'f', ';', ' ', '/', '*', ' ', 'r', 'e', 'd', ' ', '*', '/'],
   ['\t', 'f', 'i', 'l', 't', 'e', 'r', ':', ' ', 'b', 'l', 'u', 'r', '(', '3', '0', 'p', 'x', ')', ';'],
   ['}'],
   ['.', 'c', 'a', 'p', '-', 's', 'h', 'a', 'd', 'o', 'w', ' ', 'r', 'e', 'c', 't', '.', 'f', 'i', 'n', 'g', 'e', 'r', '-', 'l', 'i', 't', 't', 'l', 'e', ' ', '{'],
   ['\t', 'f', 'i', 'l', 'l', ':', ' ', '#', 'd', 'c', '3', '2', '2', 'f', ';', ' ', '/', '*', ' ', 'r', 'e', 'd', ' ', '*', '/'],
   ['}'],
   ['.', 'c', 'a', 'p', '-', 's', 'h', 'a', 'd', 'o', 'w', ' ', 'r', 'e', 'c', 't', '.', 'f', 'i', 'n', 'g', 'e', 'r', '-', 'r', 'i', 'n', 'g', ' ', '{'],
   ['\t', 'f', 'i', 'l', 'l', ':', ' ', '#', '2', '6', '8', 'b', 'd', '2', ';', ' ', '/', '*', ' ', 'b', 'l', 'u', 'e', ' ', '*', '/'],
   ['}'],
   ['.', 'c', 'a', 'p', '-', 's', 'h', 'a', 'd', 'o', 'w', ' ', 'r', 'e', 'c', 't', '.', 'f', 'i', 'n', 'g', 'e', 'r', '-', 'm', 'i', 'd', 'd', 'l', 'e', ' ', '{'],
   ['\t', 'f', 'i', 'l', 'l', ':', ' ', '#', 'd', '3', '3', '6', '8', '2', ';', ' ', '/', '*', ' ', 'm', 'a', 'g', 'e', 'n', 't', 'a', ' ', '*', '/'],
   ['}'],
   ['.', 'c', 'a', 'p', '-', 's', 'h', 'a', 'd', 'o', 'w', ' ', 'r', 'e', 'c', 't', '.', 'f', 'i', 'n', 'g', 'e', 'r', '-', 'i', 'n', 'd', 'e', 'x', ' ', '{'],
   ['\t', 'f', 'i', 'l', 'l', ':', ' ', '#', '6', 'c', '7', '1', 'c', '4', ';', ' ', '/', '*', ' ', 'v', 'i', 'o', 'l', 'e', 't', ' ', '*', '/'],
   ['}'],
   ['.', 'c', 'a', 'p', '-', 's', 'h', 'a', 'd', 'o', 'w', ' ', 'r', 'e', 'c', 't', '.', 'f', 'i', 'n', 'g', 'e', 'r', '-', 't', 'h', 'u', 'm', 'b', ' ', '{'],
   ['\t', 'f', 'i', 'l', 'l', ':', ' ', '#', '2', 'a', 'a', '1', '9', '8', ';', ' ', '/', '*', ' ', 'c', 'y', 'a', 'n', ' ', '*', '/'],
   ['}'],
   ['.', 'l', 'a', 'b', 'e', 'l', ' ', '{'],
   ['\t', 'f', 'i', 'l', 'l', ':', ' ', '#', '6', '5', '7', 'b', '8', '3', ';'],
   ['}'],
   ['.', 'l', 'a', 'b', 'e', 'l', '.', 's', 'h', 'a', 'd', 'o', 'w', ' ', '{'],
   ['\t', 'f', 'i', 'l', 'l', ':', ' ', '#', 'f', 'd', 'f', '6', 'e', '3', ';'],
   ['}'],
   ['.', 'c', 'o', 'n', 't', 'r', 'o', 'l', 'l', 'a', 'b', 'e', 'l', ' ', '{'],
   ['\t', 's', 't', 'r', 'o', 'k', 'e', ':', ' ', '#', '6', '5', '7', 'b', '8', '3', ';'],
   ['\t', 'f', 'i', 'l', 'l', ':', ' ', 'n', 'o', 'n', 'e', ';'],
   ['}'],
   ['.', 'c', 'o', 'n', 't', 'r', 'o', 'l', 'l', 'a', 'b', 'e', 'l', '.', 's', 'h', 'a', 'd', 'o', 'w', ' ', '{'],
   ['\t', 's', 't', 'r', 'o', 'k', 'e', ':', ' ', '#', 'f', 'd', 'f', '6', 'e', '3', ';'],
   ['\t', 'f', 'i', 'l', 'l', ':', ' ', 'n', 'o', 'n', 'e', ';'],
   ['}'],
   ['.', 'm', 'a', 'r', 'k', 'e', 'r', ' ', 'l', 'i', 'n', 'e', ' ', '{'],
   ['\t', 's', 't', 'r', 'o', 'k', 'e', ':', ' ', '#', 'f', 'd', 'f', '6', 'e', '3', ';'],
   ['}'],
   ['.', 'm', 'a', 'r', 'k', 'e', 'r', ' ', 'l', 'i', 'n', 'e', '.', 's', 'h', 'a', 'd', 'o', 'w', ' ', '{'],
   ['\t', 's', 't', 'r', 'o', 'k', 'e', ':', ' ', '#', '9', '3', 'a', '1', 'a', '1', ';'],
   ['}']]

/-- The lines of `data/render-svg-print.css`. -/
def renderSvgPrintCss : List Text :=
  [['/', '*', ' ', 'S', 't', 'y', 'l', 'e', ' ', 'f', 'o', 'r', ' ', 'p', 'r', 'i', 'n', 't', 'i', 'n', 'g', ' ', 'w', 'i', 't', 'h', ' ', 'o', 'u', 't', 'l', 'i', 'n', 'e', 's', ' ', 'i', 'n', 's', 't', 'e', 'a', 'd', ' ', 'o', 'f', ' ', 's', 'o', 'l', 'i', 'd', ' ', 'c', 'o', 'l', 'o', 'r', ' ', 'f', 'a', 'c', 'e', 's', ' ', '*', '/'],
   [],
   ['/', '*', ' ', 'i', 'n', 'k', 's', 'c', 'a', 'p', 'e', '-', 'c', 'o', 'm', 'p', 'a', 't', 'i', 'b', 'i', 'l', 'i', 't', 'y', ',', ' ', 'e', 'x', 'p', 'l', 'i', 'c', 'i', 't', 'l', 'y', ' ', 'a', 'p', 'p', 'l', 'y', ' ', 'f', 'o', 'n', 't', ' ', 's', 'e', 't', 't', 'i', 'n', 'g', 's', ' ', 't', 'o', ' ', '.', 'l', 'a', 'b', 'e', 'l', ' ', '*', '/'],
   ['s', 'v', 'g', ',', ' ', '.', 'l', 'a', 'b', 'e', 'l', ' ', '{'],
   ['\t', 'f', 'o', 'n', 't', '-', 'f', 'a', 'm', 'i', 'l', 'y', ':', ' ', '"', 'I', 'B', 'M', ' ', 'P', 'l', 'e', 'x', ' ', 'S', 'a', 'n', 's', ' ', 'A', 'r', 'a', 'b', 'i', 'c', '"', ';'],
   ['\t', 'f', 'o', 'n', 't', '-', 's', 'i', 'z', 'e', ':', ' ', '9', '0', 'p', 'x', ';'],
   ['\t', 'f', 'o', 'n', 't', '-', 'w', 'e', 'i', 'g', 'h', 't', ':', ' ', '4', '0', '0', ';'],
   ['}'],
   ['.', 'u', 'n', 'u', 's', 'e', 'd', ' ', '{'],
   ['\t', 'o', 'p', 'a', 'c', 'i', 't', 'y', ':', ' ', '0', '.', '6', ';'],
   ['}'],
   ['.', 'l', 'a', 'b', 'e', 'l', ' ', '.', 'l', 'a', 'y', 'e', 'r', '-', '1', ' ', '{'],
   ['}'],
   ['.', 'm', 'o', 'd', 'i', 'f', 'i', 'e', 'r', ' ', '.', 'l', 'a', 'b', 'e', 'l', ' ', '.', 'l', 'a', 'y', 'e', 'r', '-', '1', ' ', '{'],
   ['\t', 'f', 'o', 'n', 't', '-', 's', 'i', 'z', 'e', ':', ' ', '8', '0', '%', ';'],
   ['}'],
   ['.', 'l', 'a', 'b', 'e', 'l', ' ', '.', 'l', 'a', 'y', 'e', 'r', '-', '2', ',', ' ', '.', 'l', 'a', 'b', 'e', 'l', ' ', '.', 'l', 'a', 'y', 'e', 'r', '-', '3', ',', ' ', '.', 'l', 'a', 'b', 'e', 'l', ' ', '.', 'l', 'a', 'y', 'e', 'r', '-', '4', ' ', '{'],
   ['\t', 'f', 'o', 'n', 't', '-', 's', 'i', 'z', 'e', ':', ' ', '8', '0', '%', ';'],
   ['\t', 'f', 'o', 'n', 't', '-', 'w', 'e', 'i', 'g', 'h', 't', ':', ' ', '1', '0', '0', ';'],
   ['}'],
   ['.', 'l', 'a', 'b', 'e', 'l', ' ', '.', 'c', 'o', 'n', 't', 'r', 'o', 'l', 'c', 'h', 'a', 'r', ' ', '{'],
   ['\t', 'f', 'o', 'n', 't', '-', 's', 'i', 'z', 'e', ':', ' ', '4', '0', '%', ';'],
   ['\t', 'f', 'o', 'n', 't', '-', 'f', 'a', 'm', 'i', 'l', 'y', ':', ' ', 's', 'a', 'n', 's', '-', 's', 'e', 'r', 'i', 'f', ';'],
   ['}'],
   ['.', 'c', 'a', 'p', ' ', 'r', 'e', 'c', 't', ' ', '{'],
   ['\t', 'f', 'i', 'l', 'l', ':', ' ', 'w', 'h', 'i', 't', 'e', ';'],
   ['\t', 's', 't', 'r', 'o', 'k', 'e', ':', ' ', 'g', 'r', 'a', 'y', ';'],
   ['\t', 's', 't', 'r', 'o', 'k', 'e', '-', 'w', 'i', 'd', 't', 'h', ':', ' ', '2', ';'],
   ['}'],
   ['.', 'h', 'i', 'g', 'h', 'l', 'i', 'g', 'h', 't', ' ', 'c', 'i', 'r', 'c', 'l', 'e', ' ', '{'],
   ['}'],
   ['.', 'c', 'a', 'p', '-', 's', 'h', 'a', 'd', 'o', 'w', ' ', 'r', 'e', 'c', 't', '.', 'f', 'i', 'n', 'g', 'e', 'r', '-', 'l', 'i', 't', 't', 'l', 'e', ','],
   ['.', 'c', 'a', 'p', '-', 's', 'h', 'a', 'd', 'o', 'w', ' ', 'r', 'e', 'c', 't', '.', 'f', 'i', 'n', 'g', 'e', 'r', '-', 'r', 'i', 'n', 'g', ','],
   ['.', 'c', 'a', 'p', '-', 's', 'h', 'a', 'd', 'o', 'w', ' ', 'r', 'e', 'c', 't', '.', 'f', 'i', 'n', 'g', 'e', 'r', '-', 'm', 'i', 'd', 'd', 'l', 'e', ','],
   ['.', 'c', 'a', 'p', '-', 's', 'h', 'a', 'd', 'o', 'w', ' ', 'r', 'e', 'c', 't', '.', 'f', 'i', 'n', 'g', 'e', 'r', '-', 'i', 'n', 'd', 'e', 'x', ','],
   ['.', 'c', 'a', 'p', '-', 's', 'h', 'a', 'd', 'o', 'w', ' ', 'r', 'e', 'c', 't', '.', 'f', 'i', 'n', 'g', 'e', 'r', '-', 't', 'h', 'u', 'm', 'b', ' ', '{'],
   ['\t', 'f', 'i', 'l', 'l', ':', ' ', 'w', 'h', 'i', 't', 'e', ';'],
   ['}'],
   [],
   ['.', 'l', 'a', 'b', 'e', 'l', ' ', '{'],
   ['\t', 'f', 'i', 'l', 'l', ':', ' ', 'b', 'l', 'a', 'c', 'k', ';'],
   ['}'],
   ['.', 'l', 'a', 'b', 'e', 'l', '.', 's', 'h', 'a', 'd', 'o', 'w', ' ', '{'],
   ['\t', 'f', 'i', 'l', 'l', ':', ' ', 'w', 'h', 'i', 't', 'e', ';'],
   ['}'],
   ['.', 'c', 'o', 'n', 't', 'r', 'o', 'l', 'l', 'a', 'b', 'e', 'l', ' ', '{'],
   ['\t', 's', 't', 'r', 'o', 'k', 'e', ':', ' ', 'b', 'l', 'a', 'c', 'k', ';'],
   ['\t', 'f', 'i', 'l', 'l', ':', ' ', 'n', 'o', 'n', 'e', ';'],
   ['}'],
   ['.', 'c', 'o', 'n', 't', 'r', 'o', 'l', 'l', 'a', 'b', 'e', 'l', '.', 's', 'h', 'a', 'd', 'o', 'w', ' ', '{'],
   ['\t', 's', 't', 'r', 'o', 'k', 'e', ':', ' ', 'w', 'h', 'i', 't', 'e', ';'],
   ['\t', 'f', 'i', 'l', 'l', ':', ' ', 'n', 'o', 'n', 'e', ';'],
   ['}'],
   ['.', 'm', 'a', 'r', 'k', 'e', 'r', ' ', 'l', 'i', 'n', 'e', ' ', '{'],
   ['\t', 's', 't', 'r', 'o', 'k', 'e', ':', ' ', 'g', 'r', 'a', 'y', ';'],
   ['}'],
   ['.', 'm', 'a', 'r', 'k', 'e', 'r', ' ', 'l', 'i', 'n', 'e', '.', 's', 'h', 'a', 'd', 'o', 'w', ' ', '{'],
   ['\t', 's', 't', 'r', 'o', 'k', 'e', ':', ' ', 'w', 'h', 'i', 't', 'e', ';'],
   ['}'],
   []]

end Lulua.Data
