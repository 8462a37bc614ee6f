import Verif.Model.Smeftsim

/-! The texts of the SMEFTsim card as characters (made by a script), proved equal to the texts of the model. -/

set_option autoImplicit false

namespace Verif

/-- Preamble of set A, scheme `alpha`. -/
def charsA : List (List Char) := [
   [],
   ['#', '#', '#', '#', '#', '#', '#', '#', '#', '#', '#', '#', '#', '#', '#', '#', '#', '#', '#', '#', '#', '#',
    '#', '#', '#', '#', '#', '#', '#', '#', '#', '#', '#', '#', '#', '#', '#', '#', '#', '#', '#', '#', '#', '#',
    '#', '#', '#', '#', '#', '#', '#', '#', '#', '#', '#', '#', '#', '#', '#', '#', '#', '#', '#', '#', '#', '#',
    '#', '#', '#', '#'],
   ['#', '#', ' ', 'P', 'A', 'R', 'A', 'M', '_', 'C', 'A', 'R', 'D', ' ', 'F', 'O', 'R', ' ', 'S', 'M', 'E', 'F',
    'T', 'S', 'I', 'M', ' ', 'S', 'E', 'T', ' ', 'A', ' ', 'v', '2', '.', '0', ' ', '-', ' ', 'F', 'L', 'A', 'V',
    'O', 'R', '_', 'G', 'E', 'N', 'E', 'R', 'A', 'L', ' ', 'A', 'L', 'P', 'H', 'A', '_', 'I', 'N', 'P', 'U', 'T',
    'S', ' ', ' ', '#', '#', '#', '#', '#'],
   ['#', '#', '#', '#', '#', '#', '#', '#', '#', '#', '#', '#', '#', '#', '#', '#', '#', '#', '#', '#', '#', '#',
    '#', '#', '#', '#', '#', '#', '#', '#', '#', '#', '#', '#', '#', '#', '#', '#', '#', '#', '#', '#', '#', '#',
    '#', '#', '#', '#', '#', '#', '#', '#', '#', '#', '#', '#', '#', '#', '#', '#', '#', '#', '#', '#', '#', '#',
    '#', '#', '#', '#'],
   [],
   ['#', '#', '#', '#', '#', '#', '#', '#', '#', '#', '#', '#', '#', '#', '#', '#', '#', '#', '#', '#', '#', '#',
    '#', '#', '#', '#', '#', '#', '#', '#', '#', '#', '#', '#', '#'],
   ['#', '#', ' ', 'I', 'N', 'F', 'O', 'R', 'M', 'A', 'T', 'I', 'O', 'N', ' ', 'F', 'O', 'R', ' ', 'S', 'M', 'I',
    'N', 'P', 'U', 'T', 'S'],
   ['#', '#', '#', '#', '#', '#', '#', '#', '#', '#', '#', '#', '#', '#', '#', '#', '#', '#', '#', '#', '#', '#',
    '#', '#', '#', '#', '#', '#', '#', '#', '#', '#', '#', '#', '#'],
   ['B', 'l', 'o', 'c', 'k', ' ', 'S', 'M', 'I', 'N', 'P', 'U', 'T', 'S', ' '],
   [' ', ' ', ' ', ' ', '1', ' ', '7', '.', '8', '1', '5', '5', '5', '3', 'e', '-', '0', '3', ' ', '#', ' ', 'a',
    'E', 'W', ' '],
   [' ', ' ', ' ', ' ', '2', ' ', '1', '.', '1', '6', '6', '3', '7', '9', 'e', '-', '0', '5', ' ', '#', ' ', 'G',
    'f', ' '],
   [' ', ' ', ' ', ' ', '3', ' ', '1', '.', '1', '8', '1', '0', '0', '0', 'e', '-', '0', '1', ' ', '#', ' ', 'a',
    'S', ' '],
   [],
   ['#', '#', '#', '#', '#', '#', '#', '#', '#', '#', '#', '#', '#', '#', '#', '#', '#', '#', '#', '#', '#', '#',
    '#', '#', '#', '#', '#', '#', '#', '#', '#', '#', '#', '#', '#'],
   ['#', '#', ' ', 'I', 'N', 'F', 'O', 'R', 'M', 'A', 'T', 'I', 'O', 'N', ' ', 'F', 'O', 'R', ' ', 'M', 'A', 'S', 'S'],
   ['#', '#', '#', '#', '#', '#', '#', '#', '#', '#', '#', '#', '#', '#', '#', '#', '#', '#', '#', '#', '#', '#',
    '#', '#', '#', '#', '#', '#', '#', '#', '#', '#', '#', '#', '#'],
   ['B', 'l', 'o', 'c', 'k', ' ', 'M', 'A', 'S', 'S', ' '],
   [' ', ' ', ' ', ' ', '1', ' ', '4', '.', '7', '0', '0', '0', '0', '0', 'e', '-', '0', '3', ' ', '#', ' ', 'M',
    'D', ' '],
   [' ', ' ', ' ', ' ', '2', ' ', '2', '.', '2', '0', '0', '0', '0', '0', 'e', '-', '0', '3', ' ', '#', ' ', 'M',
    'U', ' '],
   [' ', ' ', ' ', ' ', '3', ' ', '9', '.', '6', '0', '0', '0', '0', '0', 'e', '-', '0', '2', ' ', '#', ' ', 'M',
    'S', ' '],
   [' ', ' ', ' ', ' ', '4', ' ', '1', '.', '2', '8', '0', '0', '0', '0', 'e', '+', '0', '0', ' ', '#', ' ', 'M',
    'C', ' '],
   [' ', ' ', ' ', ' ', '5', ' ', '4', '.', '1', '8', '0', '0', '0', '0', 'e', '+', '0', '0', ' ', '#', ' ', 'M',
    'B', ' '],
   [' ', ' ', ' ', ' ', '6', ' ', '1', '.', '7', '3', '2', '0', '0', '0', 'e', '+', '0', '2', ' ', '#', ' ', 'M',
    'T', ' '],
   [' ', ' ', ' ', '1', '1', ' ', '5', '.', '1', '1', '0', '0', '0', '0', 'e', '-', '0', '4', ' ', '#', ' ', 'M',
    'e', ' '],
   [' ', ' ', ' ', '1', '3', ' ', '1', '.', '0', '5', '6', '6', '0', '0', 'e', '-', '0', '1', ' ', '#', ' ', 'M',
    'M', 'U', ' '],
   [' ', ' ', ' ', '1', '5', ' ', '1', '.', '7', '7', '7', '0', '0', '0', 'e', '+', '0', '0', ' ', '#', ' ', 'M',
    'T', 'A', ' '],
   [' ', ' ', ' ', '2', '3', ' ', '9', '.', '1', '1', '8', '7', '6', '0', 'e', '+', '0', '1', ' ', '#', ' ', 'M',
    'Z', ' '],
   [' ', ' ', ' ', '2', '5', ' ', '1', '.', '2', '5', '0', '9', '0', '0', 'e', '+', '0', '2', ' ', '#', ' ', 'M',
    'H', ' '],
   ['#', '#', ' ', ' ', 'N', 'o', 't', ' ', 'd', 'e', 'p', 'e', 'n', 'd', 'e', 'n', 't', ' ', 'p', 'a', 'r', 'a',
    'm', 'a', 't', 'e', 'r', '.'],
   ['#', '#', ' ', 'T', 'h', 'o', 's', 'e', ' ', 'v', 'a', 'l', 'u', 'e', 's', ' ', 's', 'h', 'o', 'u', 'l', 'd',
    ' ', 'b', 'e', ' ', 'e', 'd', 'i', 't', 'e', 'd', ' ', 'f', 'o', 'l', 'l', 'o', 'w', 'i', 'n', 'g', ' ', 'a',
    'n', 'a', 'l', 'y', 't', 'i', 'c', 'a', 'l', ' ', 't', 'h', 'e', ' '],
   ['#', '#', ' ', 'a', 'n', 'a', 'l', 'y', 't', 'i', 'c', 'a', 'l', ' ', 'e', 'x', 'p', 'r', 'e', 's', 's', 'i',
    'o', 'n', '.', ' ', 'S', 'o', 'm', 'e', ' ', 'g', 'e', 'n', 'e', 'r', 'a', 't', 'o', 'r', ' ', 'c', 'o', 'u',
    'l', 'd', ' ', 's', 'i', 'm', 'p', 'l', 'y', ' ', 'i', 'g', 'n', 'o', 'r', 'e', ' '],
   ['#', '#', ' ', 't', 'h', 'o', 's', 'e', ' ', 'v', 'a', 'l', 'u', 'e', 's', ' ', 'a', 'n', 'd', ' ', 'u', 's',
    'e', ' ', 't', 'h', 'e', ' ', 'a', 'n', 'a', 'l', 'y', 't', 'i', 'c', 'a', 'l', ' ', 'e', 'x', 'p', 'r', 'e',
    's', 's', 'i', 'o', 'n'],
   [' ', ' ', '2', '2', ' ', '0', '.', '0', '0', '0', '0', '0', '0', ' ', '#', ' ', 'a', ' ', ':', ' ', '0', '.',
    '0', ' '],
   [' ', ' ', '2', '4', ' ', '7', '3', '.', '1', '8', '7', '6', '8', '8', ' ', '#', ' ', 'W', '+', ' ', ':', ' ',
    'd', 'M', 'W', ' ', '+', ' ', 'M', 'W', '0', ' '],
   [' ', ' ', '2', '1', ' ', '0', '.', '0', '0', '0', '0', '0', '0', ' ', '#', ' ', 'g', ' ', ':', ' ', '0', '.',
    '0', ' '],
   [' ', ' ', '9', '0', '0', '0', '0', '0', '1', ' ', '0', '.', '0', '0', '0', '0', '0', '0', ' ', '#', ' ', 'g',
    'h', 'A', ' ', ':', ' ', '0', '.', '0', ' '],
   [' ', ' ', '9', '0', '0', '0', '0', '0', '3', ' ', '7', '3', '.', '1', '8', '7', '6', '8', '8', ' ', '#', ' ',
    'g', 'h', 'W', 'p', ' ', ':', ' ', 'd', 'M', 'W', ' ', '+', ' ', 'M', 'W', '0', ' '],
   [' ', ' ', '9', '0', '0', '0', '0', '0', '4', ' ', '7', '3', '.', '1', '8', '7', '6', '8', '8', ' ', '#', ' ',
    'g', 'h', 'W', 'm', ' ', ':', ' ', 'd', 'M', 'W', ' ', '+', ' ', 'M', 'W', '0', ' '],
   [' ', ' ', '8', '2', ' ', '0', '.', '0', '0', '0', '0', '0', '0', ' ', '#', ' ', 'g', 'h', 'G', ' ', ':', ' ',
    '0', '.', '0', ' '],
   [' ', ' ', '1', '2', ' ', '0', '.', '0', '0', '0', '0', '0', '0', ' ', '#', ' ', 'v', 'e', ' ', ':', ' ', '0',
    '.', '0', ' '],
   [' ', ' ', '1', '4', ' ', '0', '.', '0', '0', '0', '0', '0', '0', ' ', '#', ' ', 'v', 'm', ' ', ':', ' ', '0',
    '.', '0', ' '],
   [' ', ' ', '1', '6', ' ', '0', '.', '0', '0', '0', '0', '0', '0', ' ', '#', ' ', 'v', 't', ' ', ':', ' ', '0',
    '.', '0', ' '],
   [' ', ' ', '2', '5', '1', ' ', '7', '3', '.', '1', '8', '7', '6', '8', '8', ' ', '#', ' ', 'G', '+', ' ', ':',
    ' ', 'd', 'M', 'W', ' ', '+', ' ', 'M', 'W', '0', ' '],
   [' ', ' ', '9', '0', '0', '0', '0', '0', '2', ' ', '9', '1', '.', '1', '8', '7', '6', '0', '0', ' ', '#', ' ',
    'g', 'h', 'Z', ' ', ':', ' ', 'M', 'Z', ' '],
   [' ', ' ', '2', '5', '0', ' ', '9', '1', '.', '1', '8', '7', '6', '0', '0', ' ', '#', ' ', 'G', '0', ' ', ':',
    ' ', 'M', 'Z', ' '],
   [],
   ['#', '#', '#', '#', '#', '#', '#', '#', '#', '#', '#', '#', '#', '#', '#', '#', '#', '#', '#', '#', '#', '#',
    '#', '#', '#', '#', '#', '#', '#', '#', '#', '#', '#', '#', '#'],
   ['#', '#', ' ', 'I', 'N', 'F', 'O', 'R', 'M', 'A', 'T', 'I', 'O', 'N', ' ', 'F', 'O', 'R', ' ', 'D', 'E', 'C',
    'A', 'Y'],
   ['#', '#', '#', '#', '#', '#', '#', '#', '#', '#', '#', '#', '#', '#', '#', '#', '#', '#', '#', '#', '#', '#',
    '#', '#', '#', '#', '#', '#', '#', '#', '#', '#', '#', '#', '#'],
   ['D', 'E', 'C', 'A', 'Y', ' ', ' ', ' ', '6', ' ', '1', '.', '5', '0', '8', '3', '3', '6', 'e', '+', '0', '0', ' '],
   ['D', 'E', 'C', 'A', 'Y', ' ', ' ', '2', '3', ' ', '2', '.', '4', '9', '5', '2', '0', '0', 'e', '+', '0', '0', ' '],
   ['D', 'E', 'C', 'A', 'Y', ' ', ' ', '2', '4', ' ', '2', '.', '0', '8', '5', '0', '0', '0', 'e', '+', '0', '0', ' '],
   ['D', 'E', 'C', 'A', 'Y', ' ', ' ', '2', '5', ' ', '4', '.', '0', '7', '0', '0', '0', '0', 'e', '-', '0', '3', ' '],
   ['#', '#', ' ', ' ', 'N', 'o', 't', ' ', 'd', 'e', 'p', 'e', 'n', 'd', 'e', 'n', 't', ' ', 'p', 'a', 'r', 'a',
    'm', 'a', 't', 'e', 'r', '.'],
   ['#', '#', ' ', 'T', 'h', 'o', 's', 'e', ' ', 'v', 'a', 'l', 'u', 'e', 's', ' ', 's', 'h', 'o', 'u', 'l', 'd',
    ' ', 'b', 'e', ' ', 'e', 'd', 'i', 't', 'e', 'd', ' ', 'f', 'o', 'l', 'l', 'o', 'w', 'i', 'n', 'g', ' ', 'a',
    'n', 'a', 'l', 'y', 't', 'i', 'c', 'a', 'l', ' ', 't', 'h', 'e', ' '],
   ['#', '#', ' ', 'a', 'n', 'a', 'l', 'y', 't', 'i', 'c', 'a', 'l', ' ', 'e', 'x', 'p', 'r', 'e', 's', 's', 'i',
    'o', 'n', '.', ' ', 'S', 'o', 'm', 'e', ' ', 'g', 'e', 'n', 'e', 'r', 'a', 't', 'o', 'r', ' ', 'c', 'o', 'u',
    'l', 'd', ' ', 's', 'i', 'm', 'p', 'l', 'y', ' ', 'i', 'g', 'n', 'o', 'r', 'e', ' '],
   ['#', '#', ' ', 't', 'h', 'o', 's', 'e', ' ', 'v', 'a', 'l', 'u', 'e', 's', ' ', 'a', 'n', 'd', ' ', 'u', 's',
    'e', ' ', 't', 'h', 'e', ' ', 'a', 'n', 'a', 'l', 'y', 't', 'i', 'c', 'a', 'l', ' ', 'e', 'x', 'p', 'r', 'e',
    's', 's', 'i', 'o', 'n'],
   ['D', 'E', 'C', 'A', 'Y', ' ', ' ', '2', '2', ' ', '0', '.', '0', '0', '0', '0', '0', '0', ' ', '#', ' ', 'a',
    ' ', ':', ' ', '0', '.', '0', ' '],
   ['D', 'E', 'C', 'A', 'Y', ' ', ' ', '2', '1', ' ', '0', '.', '0', '0', '0', '0', '0', '0', ' ', '#', ' ', 'g',
    ' ', ':', ' ', '0', '.', '0', ' '],
   ['D', 'E', 'C', 'A', 'Y', ' ', ' ', '9', '0', '0', '0', '0', '0', '1', ' ', '0', '.', '0', '0', '0', '0', '0',
    '0', ' ', '#', ' ', 'g', 'h', 'A', ' ', ':', ' ', '0', '.', '0', ' '],
   ['D', 'E', 'C', 'A', 'Y', ' ', ' ', '8', '2', ' ', '0', '.', '0', '0', '0', '0', '0', '0', ' ', '#', ' ', 'g',
    'h', 'G', ' ', ':', ' ', '0', '.', '0', ' '],
   ['D', 'E', 'C', 'A', 'Y', ' ', ' ', '1', '2', ' ', '0', '.', '0', '0', '0', '0', '0', '0', ' ', '#', ' ', 'v',
    'e', ' ', ':', ' ', '0', '.', '0', ' '],
   ['D', 'E', 'C', 'A', 'Y', ' ', ' ', '1', '4', ' ', '0', '.', '0', '0', '0', '0', '0', '0', ' ', '#', ' ', 'v',
    'm', ' ', ':', ' ', '0', '.', '0', ' '],
   ['D', 'E', 'C', 'A', 'Y', ' ', ' ', '1', '6', ' ', '0', '.', '0', '0', '0', '0', '0', '0', ' ', '#', ' ', 'v',
    't', ' ', ':', ' ', '0', '.', '0', ' '],
   ['D', 'E', 'C', 'A', 'Y', ' ', ' ', '1', '1', ' ', '0', '.', '0', '0', '0', '0', '0', '0', ' ', '#', ' ', 'e',
    '-', ' ', ':', ' ', '0', '.', '0', ' '],
   ['D', 'E', 'C', 'A', 'Y', ' ', ' ', '1', '3', ' ', '0', '.', '0', '0', '0', '0', '0', '0', ' ', '#', ' ', 'm',
    'u', '-', ' ', ':', ' ', '0', '.', '0', ' '],
   ['D', 'E', 'C', 'A', 'Y', ' ', ' ', '1', '5', ' ', '0', '.', '0', '0', '0', '0', '0', '0', ' ', '#', ' ', 't',
    'a', '-', ' ', ':', ' ', '0', '.', '0', ' '],
   ['D', 'E', 'C', 'A', 'Y', ' ', ' ', '2', ' ', '0', '.', '0', '0', '0', '0', '0', '0', ' ', '#', ' ', 'u', ' ',
    ':', ' ', '0', '.', '0', ' '],
   ['D', 'E', 'C', 'A', 'Y', ' ', ' ', '4', ' ', '0', '.', '0', '0', '0', '0', '0', '0', ' ', '#', ' ', 'c', ' ',
    ':', ' ', '0', '.', '0', ' '],
   ['D', 'E', 'C', 'A', 'Y', ' ', ' ', '1', ' ', '0', '.', '0', '0', '0', '0', '0', '0', ' ', '#', ' ', 'd', ' ',
    ':', ' ', '0', '.', '0', ' '],
   ['D', 'E', 'C', 'A', 'Y', ' ', ' ', '3', ' ', '0', '.', '0', '0', '0', '0', '0', '0', ' ', '#', ' ', 's', ' ',
    ':', ' ', '0', '.', '0', ' '],
   ['D', 'E', 'C', 'A', 'Y', ' ', ' ', '5', ' ', '0', '.', '0', '0', '0', '0', '0', '0', ' ', '#', ' ', 'b', ' ',
    ':', ' ', '0', '.', '0', ' '],
   ['D', 'E', 'C', 'A', 'Y', ' ', ' ', '9', '0', '0', '0', '0', '0', '2', ' ', '2', '.', '4', '9', '5', '2', '0',
    '0', ' ', '#', ' ', 'g', 'h', 'Z', ' ', ':', ' ', 'W', 'Z', ' '],
   ['D', 'E', 'C', 'A', 'Y', ' ', ' ', '9', '0', '0', '0', '0', '0', '3', ' ', '2', '.', '0', '8', '5', '0', '0',
    '0', ' ', '#', ' ', 'g', 'h', 'W', 'p', ' ', ':', ' ', 'W', 'W', ' '],
   ['D', 'E', 'C', 'A', 'Y', ' ', ' ', '9', '0', '0', '0', '0', '0', '4', ' ', '2', '.', '0', '8', '5', '0', '0',
    '0', ' ', '#', ' ', 'g', 'h', 'W', 'm', ' ', ':', ' ', 'W', 'W', ' '],
   ['D', 'E', 'C', 'A', 'Y', ' ', ' ', '2', '5', '0', ' ', '2', '.', '4', '9', '5', '2', '0', '0', ' ', '#', ' ',
    'G', '0', ' ', ':', ' ', 'W', 'Z', ' '],
   ['D', 'E', 'C', 'A', 'Y', ' ', ' ', '2', '5', '1', ' ', '2', '.', '0', '8', '5', '0', '0', '0', ' ', '#', ' ',
    'G', '+', ' ', ':', ' ', 'W', 'W', ' '],
   [],
   ['#', '#', '#', '#', '#', '#', '#', '#', '#', '#', '#', '#', '#', '#', '#', '#', '#', '#', '#', '#', '#', '#',
    '#', '#', '#', '#', '#', '#', '#', '#', '#', '#', '#', '#', '#'],
   ['#', '#', ' ', 'I', 'N', 'F', 'O', 'R', 'M', 'A', 'T', 'I', 'O', 'N', ' ', 'F', 'O', 'R', ' ', 'C', 'K', 'M',
    'B', 'L', 'O', 'C', 'K'],
   ['#', '#', '#', '#', '#', '#', '#', '#', '#', '#', '#', '#', '#', '#', '#', '#', '#', '#', '#', '#', '#', '#',
    '#', '#', '#', '#', '#', '#', '#', '#', '#', '#', '#', '#', '#'],
   ['B', 'l', 'o', 'c', 'k', ' ', 'C', 'K', 'M', 'B', 'L', 'O', 'C', 'K', ' '],
   [' ', ' ', ' ', ' ', '1', ' ', '2', '.', '2', '7', '7', '3', '6', '0', 'e', '-', '0', '1', ' ', '#', ' ', 'c',
    'a', 'b', 'i', ' '],
   [' ', ' ', ' ', ' ', '2', ' ', '2', '.', '2', '5', '0', '6', '0', '0', 'e', '-', '0', '1', ' ', '#', ' ', 'C',
    'K', 'M', 'l', 'a', 'm', 'b', 'd', 'a', ' '],
   [' ', ' ', ' ', ' ', '3', ' ', '8', '.', '1', '1', '0', '0', '0', '0', 'e', '-', '0', '1', ' ', '#', ' ', 'C',
    'K', 'M', 'A', ' '],
   [' ', ' ', ' ', ' ', '4', ' ', '1', '.', '2', '4', '0', '0', '0', '0', 'e', '-', '0', '1', ' ', '#', ' ', 'C',
    'K', 'M', 'r', 'h', 'o', ' '],
   [' ', ' ', ' ', ' ', '5', ' ', '3', '.', '5', '6', '0', '0', '0', '0', 'e', '-', '0', '1', ' ', '#', ' ', 'C',
    'K', 'M', 'e', 't', 'a', ' '],
   [' ', ' ', ' ', ' '],
   []]

/-- Preamble of set A, scheme `mw`. -/
def charsAmw : List (List Char) := [
   [],
   ['#', '#', '#', '#', '#', '#', '#', '#', '#', '#', '#', '#', '#', '#', '#', '#', '#', '#', '#', '#', '#', '#',
    '#', '#', '#', '#', '#', '#', '#', '#', '#', '#', '#', '#', '#', '#', '#', '#', '#', '#', '#', '#', '#', '#',
    '#', '#', '#', '#', '#', '#', '#', '#', '#', '#', '#', '#', '#', '#', '#', '#', '#', '#', '#', '#', '#', '#',
    '#', '#', '#', '#'],
   ['#', '#', ' ', 'P', 'A', 'R', 'A', 'M', '_', 'C', 'A', 'R', 'D', ' ', 'F', 'O', 'R', ' ', 'S', 'M', 'E', 'F',
    'T', 'S', 'I', 'M', ' ', 'S', 'E', 'T', ' ', 'A', ' ', 'v', '2', '.', '0', ' ', '-', ' ', 'F', 'L', 'A', 'V',
    'O', 'R', '_', 'G', 'E', 'N', 'E', 'R', 'A', 'L', ' ', 'M', 'W', '_', 'I', 'N', 'P', 'U', 'T', 'S', ' ', ' ',
    '#', '#', '#', '#', '#', '#', '#', '#'],
   ['#', '#', '#', '#', '#', '#', '#', '#', '#', '#', '#', '#', '#', '#', '#', '#', '#', '#', '#', '#', '#', '#',
    '#', '#', '#', '#', '#', '#', '#', '#', '#', '#', '#', '#', '#', '#', '#', '#', '#', '#', '#', '#', '#', '#',
    '#', '#', '#', '#', '#', '#', '#', '#', '#', '#', '#', '#', '#', '#', '#', '#', '#', '#', '#', '#', '#', '#',
    '#', '#', '#', '#'],
   [],
   ['#', '#', '#', '#', '#', '#', '#', '#', '#', '#', '#', '#', '#', '#', '#', '#', '#', '#', '#', '#', '#', '#',
    '#', '#', '#', '#', '#', '#', '#', '#', '#', '#', '#', '#', '#'],
   ['#', '#', ' ', 'I', 'N', 'F', 'O', 'R', 'M', 'A', 'T', 'I', 'O', 'N', ' ', 'F', 'O', 'R', ' ', 'S', 'M', 'I',
    'N', 'P', 'U', 'T', 'S'],
   ['#', '#', '#', '#', '#', '#', '#', '#', '#', '#', '#', '#', '#', '#', '#', '#', '#', '#', '#', '#', '#', '#',
    '#', '#', '#', '#', '#', '#', '#', '#', '#', '#', '#', '#', '#'],
   ['B', 'l', 'o', 'c', 'k', ' ', 'S', 'M', 'I', 'N', 'P', 'U', 'T', 'S', ' '],
   [' ', ' ', ' ', ' ', '2', ' ', '1', '.', '1', '6', '6', '3', '7', '9', 'e', '-', '0', '5', ' ', '#', ' ', 'G',
    'f', ' '],
   [' ', ' ', ' ', ' ', '3', ' ', '1', '.', '1', '8', '1', '0', '0', '0', 'e', '-', '0', '1', ' ', '#', ' ', 'a',
    'S', ' '],
   [],
   ['#', '#', '#', '#', '#', '#', '#', '#', '#', '#', '#', '#', '#', '#', '#', '#', '#', '#', '#', '#', '#', '#',
    '#', '#', '#', '#', '#', '#', '#', '#', '#', '#', '#', '#', '#'],
   ['#', '#', ' ', 'I', 'N', 'F', 'O', 'R', 'M', 'A', 'T', 'I', 'O', 'N', ' ', 'F', 'O', 'R', ' ', 'M', 'A', 'S', 'S'],
   ['#', '#', '#', '#', '#', '#', '#', '#', '#', '#', '#', '#', '#', '#', '#', '#', '#', '#', '#', '#', '#', '#',
    '#', '#', '#', '#', '#', '#', '#', '#', '#', '#', '#', '#', '#'],
   ['B', 'l', 'o', 'c', 'k', ' ', 'M', 'A', 'S', 'S', ' '],
   [' ', ' ', ' ', ' ', '1', ' ', '4', '.', '7', '0', '0', '0', '0', '0', 'e', '-', '0', '3', ' ', '#', ' ', 'M',
    'D', ' '],
   [' ', ' ', ' ', ' ', '2', ' ', '2', '.', '2', '0', '0', '0', '0', '0', 'e', '-', '0', '3', ' ', '#', ' ', 'M',
    'U', ' '],
   [' ', ' ', ' ', ' ', '3', ' ', '9', '.', '6', '0', '0', '0', '0', '0', 'e', '-', '0', '2', ' ', '#', ' ', 'M',
    'S', ' '],
   [' ', ' ', ' ', ' ', '4', ' ', '1', '.', '2', '8', '0', '0', '0', '0', 'e', '+', '0', '0', ' ', '#', ' ', 'M',
    'C', ' '],
   [' ', ' ', ' ', ' ', '5', ' ', '4', '.', '1', '8', '0', '0', '0', '0', 'e', '+', '0', '0', ' ', '#', ' ', 'M',
    'B', ' '],
   [' ', ' ', ' ', ' ', '6', ' ', '1', '.', '7', '3', '2', '0', '0', '0', 'e', '+', '0', '2', ' ', '#', ' ', 'M',
    'T', ' '],
   [' ', ' ', ' ', '1', '1', ' ', '5', '.', '1', '1', '0', '0', '0', '0', 'e', '-', '0', '4', ' ', '#', ' ', 'M',
    'e', ' '],
   [' ', ' ', ' ', '1', '3', ' ', '1', '.', '0', '5', '6', '6', '0', '0', 'e', '-', '0', '1', ' ', '#', ' ', 'M',
    'M', 'U', ' '],
   [' ', ' ', ' ', '1', '5', ' ', '1', '.', '7', '7', '7', '0', '0', '0', 'e', '+', '0', '0', ' ', '#', ' ', 'M',
    'T', 'A', ' '],
   [' ', ' ', ' ', '2', '3', ' ', '9', '.', '1', '1', '8', '7', '6', '0', 'e', '+', '0', '1', ' ', '#', ' ', 'M',
    'Z', ' '],
   [' ', ' ', ' ', '2', '5', ' ', '1', '.', '2', '5', '0', '9', '0', '0', 'e', '+', '0', '2', ' ', '#', ' ', 'M',
    'H', ' '],
   ['#', '#', ' ', ' ', 'N', 'o', 't', ' ', 'd', 'e', 'p', 'e', 'n', 'd', 'e', 'n', 't', ' ', 'p', 'a', 'r', 'a',
    'm', 'a', 't', 'e', 'r', '.'],
   ['#', '#', ' ', 'T', 'h', 'o', 's', 'e', ' ', 'v', 'a', 'l', 'u', 'e', 's', ' ', 's', 'h', 'o', 'u', 'l', 'd',
    ' ', 'b', 'e', ' ', 'e', 'd', 'i', 't', 'e', 'd', ' ', 'f', 'o', 'l', 'l', 'o', 'w', 'i', 'n', 'g', ' ', 'a',
    'n', 'a', 'l', 'y', 't', 'i', 'c', 'a', 'l', ' ', 't', 'h', 'e', ' '],
   ['#', '#', ' ', 'a', 'n', 'a', 'l', 'y', 't', 'i', 'c', 'a', 'l', ' ', 'e', 'x', 'p', 'r', 'e', 's', 's', 'i',
    'o', 'n', '.', ' ', 'S', 'o', 'm', 'e', ' ', 'g', 'e', 'n', 'e', 'r', 'a', 't', 'o', 'r', ' ', 'c', 'o', 'u',
    'l', 'd', ' ', 's', 'i', 'm', 'p', 'l', 'y', ' ', 'i', 'g', 'n', 'o', 'r', 'e', ' '],
   ['#', '#', ' ', 't', 'h', 'o', 's', 'e', ' ', 'v', 'a', 'l', 'u', 'e', 's', ' ', 'a', 'n', 'd', ' ', 'u', 's',
    'e', ' ', 't', 'h', 'e', ' ', 'a', 'n', 'a', 'l', 'y', 't', 'i', 'c', 'a', 'l', ' ', 'e', 'x', 'p', 'r', 'e',
    's', 's', 'i', 'o', 'n'],
   [' ', ' ', '2', '2', ' ', '0', '.', '0', '0', '0', '0', '0', '0', ' ', '#', ' ', 'a', ' ', ':', ' ', '0', '.',
    '0', ' '],
   ['2', '4', ' ', '8', '0', '.', '3', '8', '7', '0', '0', '0', ' ', '#', ' ', 'W', '+', ' ', ':', ' ', 'M', 'W', '0'],
   [' ', ' ', '2', '1', ' ', '0', '.', '0', '0', '0', '0', '0', '0', ' ', '#', ' ', 'g', ' ', ':', ' ', '0', '.',
    '0', ' '],
   [' ', ' ', '9', '0', '0', '0', '0', '0', '1', ' ', '0', '.', '0', '0', '0', '0', '0', '0', ' ', '#', ' ', 'g',
    'h', 'A', ' ', ':', ' ', '0', '.', '0', ' '],
   ['9', '0', '0', '0', '0', '0', '3', ' ', '8', '0', '.', '3', '8', '7', '0', '0', '0', ' ', '#', ' ', 'g', 'h',
    'W', 'p', ' ', ':', ' ', 'M', 'W', '0'],
   ['9', '0', '0', '0', '0', '0', '4', ' ', '8', '0', '.', '3', '8', '7', '0', '0', '0', ' ', '#', ' ', 'g', 'h',
    'W', 'm', ' ', ':', ' ', 'M', 'W', '0'],
   [' ', ' ', '8', '2', ' ', '0', '.', '0', '0', '0', '0', '0', '0', ' ', '#', ' ', 'g', 'h', 'G', ' ', ':', ' ',
    '0', '.', '0', ' '],
   [' ', ' ', '1', '2', ' ', '0', '.', '0', '0', '0', '0', '0', '0', ' ', '#', ' ', 'v', 'e', ' ', ':', ' ', '0',
    '.', '0', ' '],
   [' ', ' ', '1', '4', ' ', '0', '.', '0', '0', '0', '0', '0', '0', ' ', '#', ' ', 'v', 'm', ' ', ':', ' ', '0',
    '.', '0', ' '],
   [' ', ' ', '1', '6', ' ', '0', '.', '0', '0', '0', '0', '0', '0', ' ', '#', ' ', 'v', 't', ' ', ':', ' ', '0',
    '.', '0', ' '],
   ['2', '5', '1', ' ', '8', '0', '.', '3', '8', '7', '0', '0', '0', ' ', '#', ' ', 'G', '+', ' ', ':', ' ', 'M',
    'W', '0'],
   [' ', ' ', '9', '0', '0', '0', '0', '0', '2', ' ', '9', '1', '.', '1', '8', '7', '6', '0', '0', ' ', '#', ' ',
    'g', 'h', 'Z', ' ', ':', ' ', 'M', 'Z', ' '],
   [' ', ' ', '2', '5', '0', ' ', '9', '1', '.', '1', '8', '7', '6', '0', '0', ' ', '#', ' ', 'G', '0', ' ', ':',
    ' ', 'M', 'Z', ' '],
   [],
   ['#', '#', '#', '#', '#', '#', '#', '#', '#', '#', '#', '#', '#', '#', '#', '#', '#', '#', '#', '#', '#', '#',
    '#', '#', '#', '#', '#', '#', '#', '#', '#', '#', '#', '#', '#'],
   ['#', '#', ' ', 'I', 'N', 'F', 'O', 'R', 'M', 'A', 'T', 'I', 'O', 'N', ' ', 'F', 'O', 'R', ' ', 'D', 'E', 'C',
    'A', 'Y'],
   ['#', '#', '#', '#', '#', '#', '#', '#', '#', '#', '#', '#', '#', '#', '#', '#', '#', '#', '#', '#', '#', '#',
    '#', '#', '#', '#', '#', '#', '#', '#', '#', '#', '#', '#', '#'],
   ['D', 'E', 'C', 'A', 'Y', ' ', ' ', ' ', '6', ' ', '1', '.', '5', '0', '8', '3', '3', '6', 'e', '+', '0', '0', ' '],
   ['D', 'E', 'C', 'A', 'Y', ' ', ' ', '2', '3', ' ', '2', '.', '4', '9', '5', '2', '0', '0', 'e', '+', '0', '0', ' '],
   ['D', 'E', 'C', 'A', 'Y', ' ', ' ', '2', '4', ' ', '2', '.', '0', '8', '5', '0', '0', '0', 'e', '+', '0', '0', ' '],
   ['D', 'E', 'C', 'A', 'Y', ' ', ' ', '2', '5', ' ', '4', '.', '0', '7', '0', '0', '0', '0', 'e', '-', '0', '3', ' '],
   ['#', '#', ' ', ' ', 'N', 'o', 't', ' ', 'd', 'e', 'p', 'e', 'n', 'd', 'e', 'n', 't', ' ', 'p', 'a', 'r', 'a',
    'm', 'a', 't', 'e', 'r', '.'],
   ['#', '#', ' ', 'T', 'h', 'o', 's', 'e', ' ', 'v', 'a', 'l', 'u', 'e', 's', ' ', 's', 'h', 'o', 'u', 'l', 'd',
    ' ', 'b', 'e', ' ', 'e', 'd', 'i', 't', 'e', 'd', ' ', 'f', 'o', 'l', 'l', 'o', 'w', 'i', 'n', 'g', ' ', 'a',
    'n', 'a', 'l', 'y', 't', 'i', 'c', 'a', 'l', ' ', 't', 'h', 'e', ' '],
   ['#', '#', ' ', 'a', 'n', 'a', 'l', 'y', 't', 'i', 'c', 'a', 'l', ' ', 'e', 'x', 'p', 'r', 'e', 's', 's', 'i',
    'o', 'n', '.', ' ', 'S', 'o', 'm', 'e', ' ', 'g', 'e', 'n', 'e', 'r', 'a', 't', 'o', 'r', ' ', 'c', 'o', 'u',
    'l', 'd', ' ', 's', 'i', 'm', 'p', 'l', 'y', ' ', 'i', 'g', 'n', 'o', 'r', 'e', ' '],
   ['#', '#', ' ', 't', 'h', 'o', 's', 'e', ' ', 'v', 'a', 'l', 'u', 'e', 's', ' ', 'a', 'n', 'd', ' ', 'u', 's',
    'e', ' ', 't', 'h', 'e', ' ', 'a', 'n', 'a', 'l', 'y', 't', 'i', 'c', 'a', 'l', ' ', 'e', 'x', 'p', 'r', 'e',
    's', 's', 'i', 'o', 'n'],
   ['D', 'E', 'C', 'A', 'Y', ' ', ' ', '2', '2', ' ', '0', '.', '0', '0', '0', '0', '0', '0', ' ', '#', ' ', 'a',
    ' ', ':', ' ', '0', '.', '0', ' '],
   ['D', 'E', 'C', 'A', 'Y', ' ', ' ', '2', '1', ' ', '0', '.', '0', '0', '0', '0', '0', '0', ' ', '#', ' ', 'g',
    ' ', ':', ' ', '0', '.', '0', ' '],
   ['D', 'E', 'C', 'A', 'Y', ' ', ' ', '9', '0', '0', '0', '0', '0', '1', ' ', '0', '.', '0', '0', '0', '0', '0',
    '0', ' ', '#', ' ', 'g', 'h', 'A', ' ', ':', ' ', '0', '.', '0', ' '],
   ['D', 'E', 'C', 'A', 'Y', ' ', ' ', '8', '2', ' ', '0', '.', '0', '0', '0', '0', '0', '0', ' ', '#', ' ', 'g',
    'h', 'G', ' ', ':', ' ', '0', '.', '0', ' '],
   ['D', 'E', 'C', 'A', 'Y', ' ', ' ', '1', '2', ' ', '0', '.', '0', '0', '0', '0', '0', '0', ' ', '#', ' ', 'v',
    'e', ' ', ':', ' ', '0', '.', '0', ' '],
   ['D', 'E', 'C', 'A', 'Y', ' ', ' ', '1', '4', ' ', '0', '.', '0', '0', '0', '0', '0', '0', ' ', '#', ' ', 'v',
    'm', ' ', ':', ' ', '0', '.', '0', ' '],
   ['D', 'E', 'C', 'A', 'Y', ' ', ' ', '1', '6', ' ', '0', '.', '0', '0', '0', '0', '0', '0', ' ', '#', ' ', 'v',
    't', ' ', ':', ' ', '0', '.', '0', ' '],
   ['D', 'E', 'C', 'A', 'Y', ' ', ' ', '1', '1', ' ', '0', '.', '0', '0', '0', '0', '0', '0', ' ', '#', ' ', 'e',
    '-', ' ', ':', ' ', '0', '.', '0', ' '],
   ['D', 'E', 'C', 'A', 'Y', ' ', ' ', '1', '3', ' ', '0', '.', '0', '0', '0', '0', '0', '0', ' ', '#', ' ', 'm',
    'u', '-', ' ', ':', ' ', '0', '.', '0', ' '],
   ['D', 'E', 'C', 'A', 'Y', ' ', ' ', '1', '5', ' ', '0', '.', '0', '0', '0', '0', '0', '0', ' ', '#', ' ', 't',
    'a', '-', ' ', ':', ' ', '0', '.', '0', ' '],
   ['D', 'E', 'C', 'A', 'Y', ' ', ' ', '2', ' ', '0', '.', '0', '0', '0', '0', '0', '0', ' ', '#', ' ', 'u', ' ',
    ':', ' ', '0', '.', '0', ' '],
   ['D', 'E', 'C', 'A', 'Y', ' ', ' ', '4', ' ', '0', '.', '0', '0', '0', '0', '0', '0', ' ', '#', ' ', 'c', ' ',
    ':', ' ', '0', '.', '0', ' '],
   ['D', 'E', 'C', 'A', 'Y', ' ', ' ', '1', ' ', '0', '.', '0', '0', '0', '0', '0', '0', ' ', '#', ' ', 'd', ' ',
    ':', ' ', '0', '.', '0', ' '],
   ['D', 'E', 'C', 'A', 'Y', ' ', ' ', '3', ' ', '0', '.', '0', '0', '0', '0', '0', '0', ' ', '#', ' ', 's', ' ',
    ':', ' ', '0', '.', '0', ' '],
   ['D', 'E', 'C', 'A', 'Y', ' ', ' ', '5', ' ', '0', '.', '0', '0', '0', '0', '0', '0', ' ', '#', ' ', 'b', ' ',
    ':', ' ', '0', '.', '0', ' '],
   ['D', 'E', 'C', 'A', 'Y', ' ', ' ', '9', '0', '0', '0', '0', '0', '2', ' ', '2', '.', '4', '9', '5', '2', '0',
    '0', ' ', '#', ' ', 'g', 'h', 'Z', ' ', ':', ' ', 'W', 'Z', ' '],
   ['D', 'E', 'C', 'A', 'Y', ' ', ' ', '9', '0', '0', '0', '0', '0', '3', ' ', '2', '.', '0', '8', '5', '0', '0',
    '0', ' ', '#', ' ', 'g', 'h', 'W', 'p', ' ', ':', ' ', 'W', 'W', ' '],
   ['D', 'E', 'C', 'A', 'Y', ' ', ' ', '9', '0', '0', '0', '0', '0', '4', ' ', '2', '.', '0', '8', '5', '0', '0',
    '0', ' ', '#', ' ', 'g', 'h', 'W', 'm', ' ', ':', ' ', 'W', 'W', ' '],
   ['D', 'E', 'C', 'A', 'Y', ' ', ' ', '2', '5', '0', ' ', '2', '.', '4', '9', '5', '2', '0', '0', ' ', '#', ' ',
    'G', '0', ' ', ':', ' ', 'W', 'Z', ' '],
   ['D', 'E', 'C', 'A', 'Y', ' ', ' ', '2', '5', '1', ' ', '2', '.', '0', '8', '5', '0', '0', '0', ' ', '#', ' ',
    'G', '+', ' ', ':', ' ', 'W', 'W', ' '],
   [],
   ['#', '#', '#', '#', '#', '#', '#', '#', '#', '#', '#', '#', '#', '#', '#', '#', '#', '#', '#', '#', '#', '#',
    '#', '#', '#', '#', '#', '#', '#', '#', '#', '#', '#', '#', '#'],
   ['#', '#', ' ', 'I', 'N', 'F', 'O', 'R', 'M', 'A', 'T', 'I', 'O', 'N', ' ', 'F', 'O', 'R', ' ', 'C', 'K', 'M',
    'B', 'L', 'O', 'C', 'K'],
   ['#', '#', '#', '#', '#', '#', '#', '#', '#', '#', '#', '#', '#', '#', '#', '#', '#', '#', '#', '#', '#', '#',
    '#', '#', '#', '#', '#', '#', '#', '#', '#', '#', '#', '#', '#'],
   ['B', 'l', 'o', 'c', 'k', ' ', 'C', 'K', 'M', 'B', 'L', 'O', 'C', 'K', ' '],
   [' ', ' ', ' ', ' ', '1', ' ', '2', '.', '2', '7', '7', '3', '6', '0', 'e', '-', '0', '1', ' ', '#', ' ', 'c',
    'a', 'b', 'i', ' '],
   [' ', ' ', ' ', ' ', '2', ' ', '2', '.', '2', '5', '0', '6', '0', '0', 'e', '-', '0', '1', ' ', '#', ' ', 'C',
    'K', 'M', 'l', 'a', 'm', 'b', 'd', 'a', ' '],
   [' ', ' ', ' ', ' ', '3', ' ', '8', '.', '1', '1', '0', '0', '0', '0', 'e', '-', '0', '1', ' ', '#', ' ', 'C',
    'K', 'M', 'A', ' '],
   [' ', ' ', ' ', ' ', '4', ' ', '1', '.', '2', '4', '0', '0', '0', '0', 'e', '-', '0', '1', ' ', '#', ' ', 'C',
    'K', 'M', 'r', 'h', 'o', ' '],
   [' ', ' ', ' ', ' ', '5', ' ', '3', '.', '5', '6', '0', '0', '0', '0', 'e', '-', '0', '1', ' ', '#', ' ', 'C',
    'K', 'M', 'e', 't', 'a', ' '],
   [' ', ' ', ' ', ' '],
   []]

/-- Postamble of set A. -/
def charsPostA : List (List Char) := [
   [],
   [],
   ['#', '#', '#', '#', '#', '#', '#', '#', '#', '#', '#', '#', '#', '#', '#', '#', '#', '#', '#', '#', '#', '#',
    '#', '#', '#', '#', '#', '#', '#', '#', '#', '#', '#', '#', '#'],
   ['#', '#', ' ', 'I', 'N', 'F', 'O', 'R', 'M', 'A', 'T', 'I', 'O', 'N', ' ', 'F', 'O', 'R', ' ', 'Y', 'U', 'K',
    'A', 'W', 'A'],
   ['#', '#', '#', '#', '#', '#', '#', '#', '#', '#', '#', '#', '#', '#', '#', '#', '#', '#', '#', '#', '#', '#',
    '#', '#', '#', '#', '#', '#', '#', '#', '#', '#', '#', '#', '#'],
   ['B', 'l', 'o', 'c', 'k', ' ', 'Y', 'U', 'K', 'A', 'W', 'A', ' '],
   [' ', ' ', ' ', ' ', '1', ' ', '4', '.', '7', '0', '0', '0', '0', '0', 'e', '-', '0', '3', ' ', '#', ' ', 'y',
    'm', 'd', 'o', ' '],
   [' ', ' ', ' ', ' ', '2', ' ', '2', '.', '2', '0', '0', '0', '0', '0', 'e', '-', '0', '3', ' ', '#', ' ', 'y',
    'm', 'u', 'p', ' '],
   [' ', ' ', ' ', ' ', '3', ' ', '9', '.', '6', '0', '0', '0', '0', '0', 'e', '-', '0', '2', ' ', '#', ' ', 'y',
    'm', 's', ' '],
   [' ', ' ', ' ', ' ', '4', ' ', '1', '.', '2', '8', '0', '0', '0', '0', 'e', '+', '0', '0', ' ', '#', ' ', 'y',
    'm', 'c', ' '],
   [' ', ' ', ' ', ' ', '5', ' ', '4', '.', '1', '8', '0', '0', '0', '0', 'e', '+', '0', '0', ' ', '#', ' ', 'y',
    'm', 'b', ' '],
   [' ', ' ', ' ', ' ', '6', ' ', '1', '.', '7', '3', '2', '0', '0', '0', 'e', '+', '0', '2', ' ', '#', ' ', 'y',
    'm', 't', ' '],
   [' ', ' ', ' ', '1', '1', ' ', '5', '.', '1', '1', '0', '0', '0', '0', 'e', '-', '0', '4', ' ', '#', ' ', 'y',
    'm', 'e', ' '],
   [' ', ' ', ' ', '1', '3', ' ', '1', '.', '0', '5', '6', '6', '0', '0', 'e', '-', '0', '1', ' ', '#', ' ', 'y',
    'm', 'm', ' '],
   [' ', ' ', ' ', '1', '5', ' ', '1', '.', '7', '7', '7', '0', '0', '0', 'e', '+', '0', '0', ' ', '#', ' ', 'y',
    'm', 't', 'a', 'u', ' '],
   ['#', '=', '=', '=', '=', '=', '=', '=', '=', '=', '=', '=', '=', '=', '=', '=', '=', '=', '=', '=', '=', '=',
    '=', '=', '=', '=', '=', '=', '=', '=', '=', '=', '=', '=', '=', '=', '=', '=', '=', '=', '=', '=', '=', '=',
    '=', '=', '=', '=', '=', '=', '=', '=', '=', '=', '=', '=', '=', '=', '=', '='],
   ['#', ' ', 'Q', 'U', 'A', 'N', 'T', 'U', 'M', ' ', 'N', 'U', 'M', 'B', 'E', 'R', 'S', ' ', 'O', 'F', ' ', 'N',
    'E', 'W', ' ', 'S', 'T', 'A', 'T', 'E', '(', 'S', ')', ' ', '(', 'N', 'O', 'N', ' ', 'S', 'M', ' ', 'P', 'D',
    'G', ' ', 'C', 'O', 'D', 'E', ')'],
   ['#', '=', '=', '=', '=', '=', '=', '=', '=', '=', '=', '=', '=', '=', '=', '=', '=', '=', '=', '=', '=', '=',
    '=', '=', '=', '=', '=', '=', '=', '=', '=', '=', '=', '=', '=', '=', '=', '=', '=', '=', '=', '=', '=', '=',
    '=', '=', '=', '=', '=', '=', '=', '=', '=', '=', '=', '=', '=', '=', '=', '='],
   [],
   ['B', 'l', 'o', 'c', 'k', ' ', 'Q', 'N', 'U', 'M', 'B', 'E', 'R', 'S', ' ', '9', '0', '0', '0', '0', '0', '1',
    ' ', ' ', '#', ' ', 'g', 'h', 'A', ' '],
   [' ', ' ', ' ', ' ', ' ', ' ', ' ', ' ', '1', ' ', '0', ' ', ' ', '#', ' ', '3', ' ', 't', 'i', 'm', 'e', 's',
    ' ', 'e', 'l', 'e', 'c', 't', 'r', 'i', 'c', ' ', 'c', 'h', 'a', 'r', 'g', 'e'],
   [' ', ' ', ' ', ' ', ' ', ' ', ' ', ' ', '2', ' ', '-', '1', ' ', ' ', '#', ' ', 'n', 'u', 'm', 'b', 'e', 'r',
    ' ', 'o', 'f', ' ', 's', 'p', 'i', 'n', ' ', 's', 't', 'a', 't', 'e', 's', ' ', '(', '2', 'S', '+', '1', ')'],
   [' ', ' ', ' ', ' ', ' ', ' ', ' ', ' ', '3', ' ', '1', ' ', ' ', '#', ' ', 'c', 'o', 'l', 'o', 'u', 'r', ' ',
    'r', 'e', 'p', ' ', '(', '1', ':', ' ', 's', 'i', 'n', 'g', 'l', 'e', 't', ',', ' ', '3', ':', ' ', 't', 'r',
    'i', 'p', 'l', 'e', 't', ',', ' ', '8', ':', ' ', 'o', 'c', 't', 'e', 't', ')'],
   [' ', ' ', ' ', ' ', ' ', ' ', ' ', ' ', '4', ' ', '1', ' ', ' ', '#', ' ', 'P', 'a', 'r', 't', 'i', 'c', 'l',
    'e', '/', 'A', 'n', 't', 'i', 'p', 'a', 'r', 't', 'i', 'c', 'l', 'e', ' ', 'd', 'i', 's', 't', 'i', 'n', 'c',
    't', 'i', 'o', 'n', ' ', '(', '0', '=', 'o', 'w', 'n', ' ', 'a', 'n', 't', 'i', ')'],
   ['B', 'l', 'o', 'c', 'k', ' ', 'Q', 'N', 'U', 'M', 'B', 'E', 'R', 'S', ' ', '9', '0', '0', '0', '0', '0', '2',
    ' ', ' ', '#', ' ', 'g', 'h', 'Z', ' '],
   [' ', ' ', ' ', ' ', ' ', ' ', ' ', ' ', '1', ' ', '0', ' ', ' ', '#', ' ', '3', ' ', 't', 'i', 'm', 'e', 's',
    ' ', 'e', 'l', 'e', 'c', 't', 'r', 'i', 'c', ' ', 'c', 'h', 'a', 'r', 'g', 'e'],
   [' ', ' ', ' ', ' ', ' ', ' ', ' ', ' ', '2', ' ', '-', '1', ' ', ' ', '#', ' ', 'n', 'u', 'm', 'b', 'e', 'r',
    ' ', 'o', 'f', ' ', 's', 'p', 'i', 'n', ' ', 's', 't', 'a', 't', 'e', 's', ' ', '(', '2', 'S', '+', '1', ')'],
   [' ', ' ', ' ', ' ', ' ', ' ', ' ', ' ', '3', ' ', '1', ' ', ' ', '#', ' ', 'c', 'o', 'l', 'o', 'u', 'r', ' ',
    'r', 'e', 'p', ' ', '(', '1', ':', ' ', 's', 'i', 'n', 'g', 'l', 'e', 't', ',', ' ', '3', ':', ' ', 't', 'r',
    'i', 'p', 'l', 'e', 't', ',', ' ', '8', ':', ' ', 'o', 'c', 't', 'e', 't', ')'],
   [' ', ' ', ' ', ' ', ' ', ' ', ' ', ' ', '4', ' ', '1', ' ', ' ', '#', ' ', 'P', 'a', 'r', 't', 'i', 'c', 'l',
    'e', '/', 'A', 'n', 't', 'i', 'p', 'a', 'r', 't', 'i', 'c', 'l', 'e', ' ', 'd', 'i', 's', 't', 'i', 'n', 'c',
    't', 'i', 'o', 'n', ' ', '(', '0', '=', 'o', 'w', 'n', ' ', 'a', 'n', 't', 'i', ')'],
   ['B', 'l', 'o', 'c', 'k', ' ', 'Q', 'N', 'U', 'M', 'B', 'E', 'R', 'S', ' ', '9', '0', '0', '0', '0', '0', '3',
    ' ', ' ', '#', ' ', 'g', 'h', 'W', 'p', ' '],
   [' ', ' ', ' ', ' ', ' ', ' ', ' ', ' ', '1', ' ', '3', ' ', ' ', '#', ' ', '3', ' ', 't', 'i', 'm', 'e', 's',
    ' ', 'e', 'l', 'e', 'c', 't', 'r', 'i', 'c', ' ', 'c', 'h', 'a', 'r', 'g', 'e'],
   [' ', ' ', ' ', ' ', ' ', ' ', ' ', ' ', '2', ' ', '-', '1', ' ', ' ', '#', ' ', 'n', 'u', 'm', 'b', 'e', 'r',
    ' ', 'o', 'f', ' ', 's', 'p', 'i', 'n', ' ', 's', 't', 'a', 't', 'e', 's', ' ', '(', '2', 'S', '+', '1', ')'],
   [' ', ' ', ' ', ' ', ' ', ' ', ' ', ' ', '3', ' ', '1', ' ', ' ', '#', ' ', 'c', 'o', 'l', 'o', 'u', 'r', ' ',
    'r', 'e', 'p', ' ', '(', '1', ':', ' ', 's', 'i', 'n', 'g', 'l', 'e', 't', ',', ' ', '3', ':', ' ', 't', 'r',
    'i', 'p', 'l', 'e', 't', ',', ' ', '8', ':', ' ', 'o', 'c', 't', 'e', 't', ')'],
   [' ', ' ', ' ', ' ', ' ', ' ', ' ', ' ', '4', ' ', '1', ' ', ' ', '#', ' ', 'P', 'a', 'r', 't', 'i', 'c', 'l',
    'e', '/', 'A', 'n', 't', 'i', 'p', 'a', 'r', 't', 'i', 'c', 'l', 'e', ' ', 'd', 'i', 's', 't', 'i', 'n', 'c',
    't', 'i', 'o', 'n', ' ', '(', '0', '=', 'o', 'w', 'n', ' ', 'a', 'n', 't', 'i', ')'],
   ['B', 'l', 'o', 'c', 'k', ' ', 'Q', 'N', 'U', 'M', 'B', 'E', 'R', 'S', ' ', '9', '0', '0', '0', '0', '0', '4',
    ' ', ' ', '#', ' ', 'g', 'h', 'W', 'm', ' '],
   [' ', ' ', ' ', ' ', ' ', ' ', ' ', ' ', '1', ' ', '-', '3', ' ', ' ', '#', ' ', '3', ' ', 't', 'i', 'm', 'e',
    's', ' ', 'e', 'l', 'e', 'c', 't', 'r', 'i', 'c', ' ', 'c', 'h', 'a', 'r', 'g', 'e'],
   [' ', ' ', ' ', ' ', ' ', ' ', ' ', ' ', '2', ' ', '-', '1', ' ', ' ', '#', ' ', 'n', 'u', 'm', 'b', 'e', 'r',
    ' ', 'o', 'f', ' ', 's', 'p', 'i', 'n', ' ', 's', 't', 'a', 't', 'e', 's', ' ', '(', '2', 'S', '+', '1', ')'],
   [' ', ' ', ' ', ' ', ' ', ' ', ' ', ' ', '3', ' ', '1', ' ', ' ', '#', ' ', 'c', 'o', 'l', 'o', 'u', 'r', ' ',
    'r', 'e', 'p', ' ', '(', '1', ':', ' ', 's', 'i', 'n', 'g', 'l', 'e', 't', ',', ' ', '3', ':', ' ', 't', 'r',
    'i', 'p', 'l', 'e', 't', ',', ' ', '8', ':', ' ', 'o', 'c', 't', 'e', 't', ')'],
   [' ', ' ', ' ', ' ', ' ', ' ', ' ', ' ', '4', ' ', '1', ' ', ' ', '#', ' ', 'P', 'a', 'r', 't', 'i', 'c', 'l',
    'e', '/', 'A', 'n', 't', 'i', 'p', 'a', 'r', 't', 'i', 'c', 'l', 'e', ' ', 'd', 'i', 's', 't', 'i', 'n', 'c',
    't', 'i', 'o', 'n', ' ', '(', '0', '=', 'o', 'w', 'n', ' ', 'a', 'n', 't', 'i', ')'],
   ['B', 'l', 'o', 'c', 'k', ' ', 'Q', 'N', 'U', 'M', 'B', 'E', 'R', 'S', ' ', '8', '2', ' ', ' ', '#', ' ', 'g',
    'h', 'G', ' '],
   [' ', ' ', ' ', ' ', ' ', ' ', ' ', ' ', '1', ' ', '0', ' ', ' ', '#', ' ', '3', ' ', 't', 'i', 'm', 'e', 's',
    ' ', 'e', 'l', 'e', 'c', 't', 'r', 'i', 'c', ' ', 'c', 'h', 'a', 'r', 'g', 'e'],
   [' ', ' ', ' ', ' ', ' ', ' ', ' ', ' ', '2', ' ', '-', '1', ' ', ' ', '#', ' ', 'n', 'u', 'm', 'b', 'e', 'r',
    ' ', 'o', 'f', ' ', 's', 'p', 'i', 'n', ' ', 's', 't', 'a', 't', 'e', 's', ' ', '(', '2', 'S', '+', '1', ')'],
   [' ', ' ', ' ', ' ', ' ', ' ', ' ', ' ', '3', ' ', '8', ' ', ' ', '#', ' ', 'c', 'o', 'l', 'o', 'u', 'r', ' ',
    'r', 'e', 'p', ' ', '(', '1', ':', ' ', 's', 'i', 'n', 'g', 'l', 'e', 't', ',', ' ', '3', ':', ' ', 't', 'r',
    'i', 'p', 'l', 'e', 't', ',', ' ', '8', ':', ' ', 'o', 'c', 't', 'e', 't', ')'],
   [' ', ' ', ' ', ' ', ' ', ' ', ' ', ' ', '4', ' ', '1', ' ', ' ', '#', ' ', 'P', 'a', 'r', 't', 'i', 'c', 'l',
    'e', '/', 'A', 'n', 't', 'i', 'p', 'a', 'r', 't', 'i', 'c', 'l', 'e', ' ', 'd', 'i', 's', 't', 'i', 'n', 'c',
    't', 'i', 'o', 'n', ' ', '(', '0', '=', 'o', 'w', 'n', ' ', 'a', 'n', 't', 'i', ')'],
   ['B', 'l', 'o', 'c', 'k', ' ', 'Q', 'N', 'U', 'M', 'B', 'E', 'R', 'S', ' ', '2', '5', '0', ' ', ' ', '#', ' ',
    'G', '0', ' '],
   [' ', ' ', ' ', ' ', ' ', ' ', ' ', ' ', '1', ' ', '0', ' ', ' ', '#', ' ', '3', ' ', 't', 'i', 'm', 'e', 's',
    ' ', 'e', 'l', 'e', 'c', 't', 'r', 'i', 'c', ' ', 'c', 'h', 'a', 'r', 'g', 'e'],
   [' ', ' ', ' ', ' ', ' ', ' ', ' ', ' ', '2', ' ', '1', ' ', ' ', '#', ' ', 'n', 'u', 'm', 'b', 'e', 'r', ' ',
    'o', 'f', ' ', 's', 'p', 'i', 'n', ' ', 's', 't', 'a', 't', 'e', 's', ' ', '(', '2', 'S', '+', '1', ')'],
   [' ', ' ', ' ', ' ', ' ', ' ', ' ', ' ', '3', ' ', '1', ' ', ' ', '#', ' ', 'c', 'o', 'l', 'o', 'u', 'r', ' ',
    'r', 'e', 'p', ' ', '(', '1', ':', ' ', 's', 'i', 'n', 'g', 'l', 'e', 't', ',', ' ', '3', ':', ' ', 't', 'r',
    'i', 'p', 'l', 'e', 't', ',', ' ', '8', ':', ' ', 'o', 'c', 't', 'e', 't', ')'],
   [' ', ' ', ' ', ' ', ' ', ' ', ' ', ' ', '4', ' ', '0', ' ', ' ', '#', ' ', 'P', 'a', 'r', 't', 'i', 'c', 'l',
    'e', '/', 'A', 'n', 't', 'i', 'p', 'a', 'r', 't', 'i', 'c', 'l', 'e', ' ', 'd', 'i', 's', 't', 'i', 'n', 'c',
    't', 'i', 'o', 'n', ' ', '(', '0', '=', 'o', 'w', 'n', ' ', 'a', 'n', 't', 'i', ')'],
   ['B', 'l', 'o', 'c', 'k', ' ', 'Q', 'N', 'U', 'M', 'B', 'E', 'R', 'S', ' ', '2', '5', '1', ' ', ' ', '#', ' ',
    'G', '+', ' '],
   [' ', ' ', ' ', ' ', ' ', ' ', ' ', ' ', '1', ' ', '3', ' ', ' ', '#', ' ', '3', ' ', 't', 'i', 'm', 'e', 's',
    ' ', 'e', 'l', 'e', 'c', 't', 'r', 'i', 'c', ' ', 'c', 'h', 'a', 'r', 'g', 'e'],
   [' ', ' ', ' ', ' ', ' ', ' ', ' ', ' ', '2', ' ', '1', ' ', ' ', '#', ' ', 'n', 'u', 'm', 'b', 'e', 'r', ' ',
    'o', 'f', ' ', 's', 'p', 'i', 'n', ' ', 's', 't', 'a', 't', 'e', 's', ' ', '(', '2', 'S', '+', '1', ')'],
   [' ', ' ', ' ', ' ', ' ', ' ', ' ', ' ', '3', ' ', '1', ' ', ' ', '#', ' ', 'c', 'o', 'l', 'o', 'u', 'r', ' ',
    'r', 'e', 'p', ' ', '(', '1', ':', ' ', 's', 'i', 'n', 'g', 'l', 'e', 't', ',', ' ', '3', ':', ' ', 't', 'r',
    'i', 'p', 'l', 'e', 't', ',', ' ', '8', ':', ' ', 'o', 'c', 't', 'e', 't', ')'],
   [' ', ' ', ' ', ' ', ' ', ' ', ' ', ' ', '4', ' ', '1', ' ', ' ', '#', ' ', 'P', 'a', 'r', 't', 'i', 'c', 'l',
    'e', '/', 'A', 'n', 't', 'i', 'p', 'a', 'r', 't', 'i', 'c', 'l', 'e', ' ', 'd', 'i', 's', 't', 'i', 'n', 'c',
    't', 'i', 'o', 'n', ' ', '(', '0', '=', 'o', 'w', 'n', ' ', 'a', 'n', 't', 'i', ')'],
   []]

/-- Preamble of set B, scheme `alpha`. -/
def charsB : List (List Char) := [
   [],
   ['#', '#', '#', '#', '#', '#', '#', '#', '#', '#', '#', '#', '#', '#', '#', '#', '#', '#', '#', '#', '#', '#',
    '#', '#', '#', '#', '#', '#', '#', '#', '#', '#', '#', '#', '#', '#', '#', '#', '#', '#', '#', '#', '#', '#',
    '#', '#', '#', '#', '#', '#', '#', '#', '#', '#', '#', '#', '#', '#', '#', '#', '#', '#', '#', '#', '#', '#',
    '#', '#', '#', '#'],
   ['#', '#', ' ', 'P', 'A', 'R', 'A', 'M', '_', 'C', 'A', 'R', 'D', ' ', 'F', 'O', 'R', ' ', 'S', 'M', 'E', 'F',
    'T', 'S', 'I', 'M', ' ', 'S', 'E', 'T', ' ', 'B', ' ', ' ', '-', ' ', 'F', 'L', 'A', 'V', 'O', 'R', '_', 'G',
    'E', 'N', 'E', 'R', 'A', 'L', ' ', 'A', 'L', 'P', 'H', 'A', '_', 'I', 'N', 'P', 'U', 'T', 'S', ' ', ' ', '#',
    '#', '#', '#', '#'],
   ['#', '#', '#', '#', '#', '#', '#', '#', '#', '#', '#', '#', '#', '#', '#', '#', '#', '#', '#', '#', '#', '#',
    '#', '#', '#', '#', '#', '#', '#', '#', '#', '#', '#', '#', '#', '#', '#', '#', '#', '#', '#', '#', '#', '#',
    '#', '#', '#', '#', '#', '#', '#', '#', '#', '#', '#', '#', '#', '#', '#', '#', '#', '#', '#', '#', '#', '#',
    '#', '#', '#', '#'],
   [],
   ['#', '#', '#', '#', '#', '#', '#', '#', '#', '#', '#', '#', '#', '#', '#', '#', '#', '#', '#', '#', '#', '#',
    '#', '#', '#', '#', '#', '#', '#', '#', '#', '#', '#', '#', '#'],
   ['#', '#', ' ', 'I', 'N', 'F', 'O', 'R', 'M', 'A', 'T', 'I', 'O', 'N', ' ', 'F', 'O', 'R', ' ', 'S', 'M', 'I',
    'N', 'P', 'U', 'T', 'S'],
   ['#', '#', '#', '#', '#', '#', '#', '#', '#', '#', '#', '#', '#', '#', '#', '#', '#', '#', '#', '#', '#', '#',
    '#', '#', '#', '#', '#', '#', '#', '#', '#', '#', '#', '#', '#'],
   ['B', 'l', 'o', 'c', 'k', ' ', 'S', 'M', 'I', 'N', 'P', 'U', 'T', 'S', ' '],
   [' ', ' ', ' ', ' ', '1', ' ', '1', '.', '2', '7', '9', '0', '0', '0', 'e', '+', '0', '2', ' ', '#', ' ', 'a',
    'E', 'W', 'M', '1', ' '],
   [' ', ' ', ' ', ' ', '2', ' ', '1', '.', '1', '6', '6', '3', '7', '0', 'e', '-', '0', '5', ' ', '#', ' ', 'G',
    'f', ' '],
   [' ', ' ', ' ', ' ', '3', ' ', '1', '.', '1', '8', '1', '0', '0', '0', 'e', '-', '0', '1', ' ', '#', ' ', 'a',
    'S', ' '],
   [],
   ['#', '#', '#', '#', '#', '#', '#', '#', '#', '#', '#', '#', '#', '#', '#', '#', '#', '#', '#', '#', '#', '#',
    '#', '#', '#', '#', '#', '#', '#', '#', '#', '#', '#', '#', '#'],
   ['#', '#', ' ', 'I', 'N', 'F', 'O', 'R', 'M', 'A', 'T', 'I', 'O', 'N', ' ', 'F', 'O', 'R', ' ', 'M', 'A', 'S', 'S'],
   ['#', '#', '#', '#', '#', '#', '#', '#', '#', '#', '#', '#', '#', '#', '#', '#', '#', '#', '#', '#', '#', '#',
    '#', '#', '#', '#', '#', '#', '#', '#', '#', '#', '#', '#', '#'],
   ['B', 'l', 'o', 'c', 'k', ' ', 'M', 'A', 'S', 'S', ' '],
   [' ', ' ', ' ', ' ', '1', ' ', '4', '.', '7', '0', '0', '0', '0', '0', 'e', '-', '0', '3', ' ', '#', ' ', 'M',
    'D', ' '],
   [' ', ' ', ' ', ' ', '2', ' ', '2', '.', '2', '0', '0', '0', '0', '0', 'e', '-', '0', '3', ' ', '#', ' ', 'M',
    'U', ' '],
   [' ', ' ', ' ', ' ', '3', ' ', '9', '.', '6', '0', '0', '0', '0', '0', 'e', '-', '0', '2', ' ', '#', ' ', 'M',
    'S', ' '],
   [' ', ' ', ' ', ' ', '4', ' ', '1', '.', '2', '8', '0', '0', '0', '0', 'e', '+', '0', '0', ' ', '#', ' ', 'M',
    'C', ' '],
   [' ', ' ', ' ', ' ', '5', ' ', '4', '.', '1', '8', '0', '0', '0', '0', 'e', '+', '0', '0', ' ', '#', ' ', 'M',
    'B', ' '],
   [' ', ' ', ' ', ' ', '6', ' ', '1', '.', '7', '3', '1', '0', '0', '0', 'e', '+', '0', '2', ' ', '#', ' ', 'M',
    'T', ' '],
   [' ', ' ', ' ', '1', '1', ' ', '5', '.', '1', '1', '0', '0', '0', '0', 'e', '-', '0', '4', ' ', '#', ' ', 'M',
    'e', ' '],
   [' ', ' ', ' ', '1', '3', ' ', '1', '.', '0', '5', '6', '6', '0', '0', 'e', '-', '0', '1', ' ', '#', ' ', 'M',
    'M', 'U', ' '],
   [' ', ' ', ' ', '1', '5', ' ', '1', '.', '7', '7', '7', '0', '0', '0', 'e', '+', '0', '0', ' ', '#', ' ', 'M',
    'T', 'A', ' '],
   [' ', ' ', ' ', '2', '3', ' ', '9', '.', '1', '1', '8', '7', '5', '0', 'e', '+', '0', '1', ' ', '#', ' ', 'M',
    'Z', ' '],
   [' ', ' ', ' ', '2', '5', ' ', '1', '.', '2', '5', '0', '9', '0', '0', 'e', '+', '0', '2', ' ', '#', ' ', 'M',
    'H', ' '],
   ['#', '#', ' ', ' ', 'N', 'o', 't', ' ', 'd', 'e', 'p', 'e', 'n', 'd', 'e', 'n', 't', ' ', 'p', 'a', 'r', 'a',
    'm', 'a', 't', 'e', 'r', '.'],
   ['#', '#', ' ', 'T', 'h', 'o', 's', 'e', ' ', 'v', 'a', 'l', 'u', 'e', 's', ' ', 's', 'h', 'o', 'u', 'l', 'd',
    ' ', 'b', 'e', ' ', 'e', 'd', 'i', 't', 'e', 'd', ' ', 'f', 'o', 'l', 'l', 'o', 'w', 'i', 'n', 'g', ' ', 'a',
    'n', 'a', 'l', 'y', 't', 'i', 'c', 'a', 'l', ' ', 't', 'h', 'e', ' '],
   ['#', '#', ' ', 'a', 'n', 'a', 'l', 'y', 't', 'i', 'c', 'a', 'l', ' ', 'e', 'x', 'p', 'r', 'e', 's', 's', 'i',
    'o', 'n', '.', ' ', 'S', 'o', 'm', 'e', ' ', 'g', 'e', 'n', 'e', 'r', 'a', 't', 'o', 'r', ' ', 'c', 'o', 'u',
    'l', 'd', ' ', 's', 'i', 'm', 'p', 'l', 'y', ' ', 'i', 'g', 'n', 'o', 'r', 'e', ' '],
   ['#', '#', ' ', 't', 'h', 'o', 's', 'e', ' ', 'v', 'a', 'l', 'u', 'e', 's', ' ', 'a', 'n', 'd', ' ', 'u', 's',
    'e', ' ', 't', 'h', 'e', ' ', 'a', 'n', 'a', 'l', 'y', 't', 'i', 'c', 'a', 'l', ' ', 'e', 'x', 'p', 'r', 'e',
    's', 's', 'i', 'o', 'n'],
   [' ', ' ', '2', '2', ' ', '0', '.', '0', '0', '0', '0', '0', '0', ' ', '#', ' ', 'a', ' ', ':', ' ', '0', '.',
    '0', ' '],
   [' ', ' ', '2', '4', ' ', '7', '9', '.', '8', '2', '4', '2', '3', '4', ' ', '#', ' ', 'W', '+', ' ', ':', ' ',
    'd', 'M', 'W', ' ', '+', ' ', 'M', 'W', '0', ' '],
   [' ', ' ', '2', '1', ' ', '0', '.', '0', '0', '0', '0', '0', '0', ' ', '#', ' ', 'g', ' ', ':', ' ', '0', '.',
    '0', ' '],
   [' ', ' ', '9', '0', '0', '0', '0', '0', '1', ' ', '0', '.', '0', '0', '0', '0', '0', '0', ' ', '#', ' ', 'g',
    'h', 'A', ' ', ':', ' ', '0', '.', '0', ' '],
   [' ', ' ', '9', '0', '0', '0', '0', '0', '3', ' ', '7', '9', '.', '8', '2', '4', '2', '3', '4', ' ', '#', ' ',
    'g', 'h', 'W', 'p', ' ', ':', ' ', 'd', 'M', 'W', ' ', '+', ' ', 'M', 'W', '0', ' '],
   [' ', ' ', '9', '0', '0', '0', '0', '0', '4', ' ', '7', '9', '.', '8', '2', '4', '2', '3', '4', ' ', '#', ' ',
    'g', 'h', 'W', 'm', ' ', ':', ' ', 'd', 'M', 'W', ' ', '+', ' ', 'M', 'W', '0', ' '],
   [' ', ' ', '8', '2', ' ', '0', '.', '0', '0', '0', '0', '0', '0', ' ', '#', ' ', 'g', 'h', 'G', ' ', ':', ' ',
    '0', '.', '0', ' '],
   [' ', ' ', '1', '2', ' ', '0', '.', '0', '0', '0', '0', '0', '0', ' ', '#', ' ', 'v', 'e', ' ', ':', ' ', '0',
    '.', '0', ' '],
   [' ', ' ', '1', '4', ' ', '0', '.', '0', '0', '0', '0', '0', '0', ' ', '#', ' ', 'v', 'm', ' ', ':', ' ', '0',
    '.', '0', ' '],
   [' ', ' ', '1', '6', ' ', '0', '.', '0', '0', '0', '0', '0', '0', ' ', '#', ' ', 'v', 't', ' ', ':', ' ', '0',
    '.', '0', ' '],
   [' ', ' ', '2', '5', '1', ' ', '7', '9', '.', '8', '2', '4', '2', '3', '4', ' ', '#', ' ', 'G', '+', ' ', ':',
    ' ', 'd', 'M', 'W', ' ', '+', ' ', 'M', 'W', '0', ' '],
   [' ', ' ', '9', '0', '0', '0', '0', '0', '2', ' ', '9', '1', '.', '1', '8', '7', '5', '0', '0', ' ', '#', ' ',
    'g', 'h', 'Z', ' ', ':', ' ', 'M', 'Z', ' '],
   [' ', ' ', '2', '5', '0', ' ', '9', '1', '.', '1', '8', '7', '5', '0', '0', ' ', '#', ' ', 'G', '0', ' ', ':',
    ' ', 'M', 'Z', ' '],
   [],
   ['#', '#', '#', '#', '#', '#', '#', '#', '#', '#', '#', '#', '#', '#', '#', '#', '#', '#', '#', '#', '#', '#',
    '#', '#', '#', '#', '#', '#', '#', '#', '#', '#', '#', '#', '#'],
   ['#', '#', ' ', 'I', 'N', 'F', 'O', 'R', 'M', 'A', 'T', 'I', 'O', 'N', ' ', 'F', 'O', 'R', ' ', 'D', 'E', 'C',
    'A', 'Y'],
   ['#', '#', '#', '#', '#', '#', '#', '#', '#', '#', '#', '#', '#', '#', '#', '#', '#', '#', '#', '#', '#', '#',
    '#', '#', '#', '#', '#', '#', '#', '#', '#', '#', '#', '#', '#'],
   ['D', 'E', 'C', 'A', 'Y', ' ', ' ', ' ', '6', ' ', '1', '.', '5', '0', '8', '3', '3', '6', 'e', '+', '0', '0', ' '],
   ['D', 'E', 'C', 'A', 'Y', ' ', ' ', '2', '3', ' ', '2', '.', '4', '9', '5', '2', '0', '0', 'e', '+', '0', '0', ' '],
   ['D', 'E', 'C', 'A', 'Y', ' ', ' ', '2', '4', ' ', '2', '.', '0', '8', '5', '0', '0', '0', 'e', '+', '0', '0', ' '],
   ['D', 'E', 'C', 'A', 'Y', ' ', ' ', '2', '5', ' ', '4', '.', '0', '7', '0', '0', '0', '0', 'e', '-', '0', '3', ' '],
   ['#', '#', ' ', ' ', 'N', 'o', 't', ' ', 'd', 'e', 'p', 'e', 'n', 'd', 'e', 'n', 't', ' ', 'p', 'a', 'r', 'a',
    'm', 'a', 't', 'e', 'r', '.'],
   ['#', '#', ' ', 'T', 'h', 'o', 's', 'e', ' ', 'v', 'a', 'l', 'u', 'e', 's', ' ', 's', 'h', 'o', 'u', 'l', 'd',
    ' ', 'b', 'e', ' ', 'e', 'd', 'i', 't', 'e', 'd', ' ', 'f', 'o', 'l', 'l', 'o', 'w', 'i', 'n', 'g', ' ', 'a',
    'n', 'a', 'l', 'y', 't', 'i', 'c', 'a', 'l', ' ', 't', 'h', 'e', ' '],
   ['#', '#', ' ', 'a', 'n', 'a', 'l', 'y', 't', 'i', 'c', 'a', 'l', ' ', 'e', 'x', 'p', 'r', 'e', 's', 's', 'i',
    'o', 'n', '.', ' ', 'S', 'o', 'm', 'e', ' ', 'g', 'e', 'n', 'e', 'r', 'a', 't', 'o', 'r', ' ', 'c', 'o', 'u',
    'l', 'd', ' ', 's', 'i', 'm', 'p', 'l', 'y', ' ', 'i', 'g', 'n', 'o', 'r', 'e', ' '],
   ['#', '#', ' ', 't', 'h', 'o', 's', 'e', ' ', 'v', 'a', 'l', 'u', 'e', 's', ' ', 'a', 'n', 'd', ' ', 'u', 's',
    'e', ' ', 't', 'h', 'e', ' ', 'a', 'n', 'a', 'l', 'y', 't', 'i', 'c', 'a', 'l', ' ', 'e', 'x', 'p', 'r', 'e',
    's', 's', 'i', 'o', 'n'],
   ['D', 'E', 'C', 'A', 'Y', ' ', ' ', '2', '2', ' ', '0', '.', '0', '0', '0', '0', '0', '0', ' ', '#', ' ', 'a',
    ' ', ':', ' ', '0', '.', '0', ' '],
   ['D', 'E', 'C', 'A', 'Y', ' ', ' ', '2', '1', ' ', '0', '.', '0', '0', '0', '0', '0', '0', ' ', '#', ' ', 'g',
    ' ', ':', ' ', '0', '.', '0', ' '],
   ['D', 'E', 'C', 'A', 'Y', ' ', ' ', '9', '0', '0', '0', '0', '0', '1', ' ', '0', '.', '0', '0', '0', '0', '0',
    '0', ' ', '#', ' ', 'g', 'h', 'A', ' ', ':', ' ', '0', '.', '0', ' '],
   ['D', 'E', 'C', 'A', 'Y', ' ', ' ', '8', '2', ' ', '0', '.', '0', '0', '0', '0', '0', '0', ' ', '#', ' ', 'g',
    'h', 'G', ' ', ':', ' ', '0', '.', '0', ' '],
   ['D', 'E', 'C', 'A', 'Y', ' ', ' ', '1', '2', ' ', '0', '.', '0', '0', '0', '0', '0', '0', ' ', '#', ' ', 'v',
    'e', ' ', ':', ' ', '0', '.', '0', ' '],
   ['D', 'E', 'C', 'A', 'Y', ' ', ' ', '1', '4', ' ', '0', '.', '0', '0', '0', '0', '0', '0', ' ', '#', ' ', 'v',
    'm', ' ', ':', ' ', '0', '.', '0', ' '],
   ['D', 'E', 'C', 'A', 'Y', ' ', ' ', '1', '6', ' ', '0', '.', '0', '0', '0', '0', '0', '0', ' ', '#', ' ', 'v',
    't', ' ', ':', ' ', '0', '.', '0', ' '],
   ['D', 'E', 'C', 'A', 'Y', ' ', ' ', '1', '1', ' ', '0', '.', '0', '0', '0', '0', '0', '0', ' ', '#', ' ', 'e',
    '-', ' ', ':', ' ', '0', '.', '0', ' '],
   ['D', 'E', 'C', 'A', 'Y', ' ', ' ', '1', '3', ' ', '0', '.', '0', '0', '0', '0', '0', '0', ' ', '#', ' ', 'm',
    'u', '-', ' ', ':', ' ', '0', '.', '0', ' '],
   ['D', 'E', 'C', 'A', 'Y', ' ', ' ', '1', '5', ' ', '0', '.', '0', '0', '0', '0', '0', '0', ' ', '#', ' ', 't',
    'a', '-', ' ', ':', ' ', '0', '.', '0', ' '],
   ['D', 'E', 'C', 'A', 'Y', ' ', ' ', '2', ' ', '0', '.', '0', '0', '0', '0', '0', '0', ' ', '#', ' ', 'u', ' ',
    ':', ' ', '0', '.', '0', ' '],
   ['D', 'E', 'C', 'A', 'Y', ' ', ' ', '4', ' ', '0', '.', '0', '0', '0', '0', '0', '0', ' ', '#', ' ', 'c', ' ',
    ':', ' ', '0', '.', '0', ' '],
   ['D', 'E', 'C', 'A', 'Y', ' ', ' ', '1', ' ', '0', '.', '0', '0', '0', '0', '0', '0', ' ', '#', ' ', 'd', ' ',
    ':', ' ', '0', '.', '0', ' '],
   ['D', 'E', 'C', 'A', 'Y', ' ', ' ', '3', ' ', '0', '.', '0', '0', '0', '0', '0', '0', ' ', '#', ' ', 's', ' ',
    ':', ' ', '0', '.', '0', ' '],
   ['D', 'E', 'C', 'A', 'Y', ' ', ' ', '5', ' ', '0', '.', '0', '0', '0', '0', '0', '0', ' ', '#', ' ', 'b', ' ',
    ':', ' ', '0', '.', '0', ' '],
   ['D', 'E', 'C', 'A', 'Y', ' ', ' ', '9', '0', '0', '0', '0', '0', '2', ' ', '2', '.', '4', '9', '5', '2', '0',
    '0', ' ', '#', ' ', 'g', 'h', 'Z', ' ', ':', ' ', 'W', 'Z', ' '],
   ['D', 'E', 'C', 'A', 'Y', ' ', ' ', '9', '0', '0', '0', '0', '0', '3', ' ', '2', '.', '0', '8', '5', '0', '0',
    '0', ' ', '#', ' ', 'g', 'h', 'W', 'p', ' ', ':', ' ', 'W', 'W', ' '],
   ['D', 'E', 'C', 'A', 'Y', ' ', ' ', '9', '0', '0', '0', '0', '0', '4', ' ', '2', '.', '0', '8', '5', '0', '0',
    '0', ' ', '#', ' ', 'g', 'h', 'W', 'm', ' ', ':', ' ', 'W', 'W', ' '],
   ['D', 'E', 'C', 'A', 'Y', ' ', ' ', '2', '5', '0', ' ', '2', '.', '4', '9', '5', '2', '0', '0', ' ', '#', ' ',
    'G', '0', ' ', ':', ' ', 'W', 'Z', ' '],
   ['D', 'E', 'C', 'A', 'Y', ' ', ' ', '2', '5', '1', ' ', '2', '.', '0', '8', '5', '0', '0', '0', ' ', '#', ' ',
    'G', '+', ' ', ':', ' ', 'W', 'W', ' '],
   [],
   ['#', '#', '#', '#', '#', '#', '#', '#', '#', '#', '#', '#', '#', '#', '#', '#', '#', '#', '#', '#', '#', '#',
    '#', '#', '#', '#', '#', '#', '#', '#', '#', '#', '#', '#', '#'],
   ['#', '#', ' ', 'I', 'N', 'F', 'O', 'R', 'M', 'A', 'T', 'I', 'O', 'N', ' ', 'F', 'O', 'R', ' ', 'C', 'K', 'M',
    'B', 'L', 'O', 'C', 'K'],
   ['#', '#', '#', '#', '#', '#', '#', '#', '#', '#', '#', '#', '#', '#', '#', '#', '#', '#', '#', '#', '#', '#',
    '#', '#', '#', '#', '#', '#', '#', '#', '#', '#', '#', '#', '#'],
   ['B', 'l', 'o', 'c', 'k', ' ', 'C', 'K', 'M', 'B', 'L', 'O', 'C', 'K', ' '],
   [' ', ' ', ' ', ' ', '1', ' ', '2', '.', '2', '7', '7', '3', '6', '0', 'e', '-', '0', '1', ' ', '#', ' ', 'c',
    'a', 'b', 'i', ' '],
   [' ', ' ', ' ', ' ', '2', ' ', '9', '.', '7', '4', '3', '4', '0', '0', 'e', '-', '0', '1', ' ', '#', ' ', 'C',
    'K', 'M', '1', '1', ' '],
   [' ', ' ', ' ', ' ', '3', ' ', '2', '.', '2', '5', '0', '6', '0', '0', 'e', '-', '0', '1', ' ', '#', ' ', 'C',
    'K', 'M', '1', '2', ' '],
   [' ', ' ', ' ', ' ', '4', ' ', '3', '.', '5', '7', '0', '0', '0', '0', 'e', '-', '0', '3', ' ', '#', ' ', 'C',
    'K', 'M', '1', '3', ' '],
   [' ', ' ', ' ', ' ', '5', ' ', '2', '.', '2', '4', '9', '2', '0', '0', 'e', '-', '0', '1', ' ', '#', ' ', 'C',
    'K', 'M', '2', '1', ' '],
   [' ', ' ', ' ', ' ', '6', ' ', '9', '.', '7', '3', '5', '1', '0', '0', 'e', '-', '0', '1', ' ', '#', ' ', 'C',
    'K', 'M', '2', '2', ' '],
   [' ', ' ', ' ', ' ', '7', ' ', '4', '.', '1', '1', '0', '0', '0', '0', 'e', '-', '0', '2', ' ', '#', ' ', 'C',
    'K', 'M', '2', '3', ' '],
   [' ', ' ', ' ', ' ', '8', ' ', '8', '.', '7', '5', '0', '0', '0', '0', 'e', '-', '0', '3', ' ', '#', ' ', 'C',
    'K', 'M', '3', '1', ' '],
   [' ', ' ', ' ', ' ', '9', ' ', '4', '.', '0', '3', '0', '0', '0', '0', 'e', '-', '0', '2', ' ', '#', ' ', 'C',
    'K', 'M', '3', '2', ' '],
   [' ', ' ', ' ', '1', '0', ' ', '9', '.', '9', '9', '1', '5', '0', '0', 'e', '-', '0', '1', ' ', '#', ' ', 'C',
    'K', 'M', '3', '3', ' '],
   [' ', ' ', ' ', ' '],
   []]

/-- Preamble of set B, scheme `mw`. -/
def charsBmw : List (List Char) := [
   [],
   ['#', '#', '#', '#', '#', '#', '#', '#', '#', '#', '#', '#', '#', '#', '#', '#', '#', '#', '#', '#', '#', '#',
    '#', '#', '#', '#', '#', '#', '#', '#', '#', '#', '#', '#', '#', '#', '#', '#', '#', '#', '#', '#', '#', '#',
    '#', '#', '#', '#', '#', '#', '#', '#', '#', '#', '#', '#', '#', '#', '#', '#', '#', '#', '#', '#', '#', '#',
    '#', '#', '#', '#'],
   ['#', '#', ' ', 'P', 'A', 'R', 'A', 'M', '_', 'C', 'A', 'R', 'D', ' ', 'F', 'O', 'R', ' ', 'S', 'M', 'E', 'F',
    'T', 'S', 'I', 'M', ' ', 'S', 'E', 'T', ' ', 'B', ' ', ' ', '-', ' ', 'F', 'L', 'A', 'V', 'O', 'R', '_', 'G',
    'E', 'N', 'E', 'R', 'A', 'L', ' ', 'M', 'W', '_', 'I', 'N', 'P', 'U', 'T', 'S', ' ', ' ', '#', '#', '#', '#',
    '#', '#', '#', '#'],
   ['#', '#', '#', '#', '#', '#', '#', '#', '#', '#', '#', '#', '#', '#', '#', '#', '#', '#', '#', '#', '#', '#',
    '#', '#', '#', '#', '#', '#', '#', '#', '#', '#', '#', '#', '#', '#', '#', '#', '#', '#', '#', '#', '#', '#',
    '#', '#', '#', '#', '#', '#', '#', '#', '#', '#', '#', '#', '#', '#', '#', '#', '#', '#', '#', '#', '#', '#',
    '#', '#', '#', '#'],
   [],
   ['#', '#', '#', '#', '#', '#', '#', '#', '#', '#', '#', '#', '#', '#', '#', '#', '#', '#', '#', '#', '#', '#',
    '#', '#', '#', '#', '#', '#', '#', '#', '#', '#', '#', '#', '#'],
   ['#', '#', ' ', 'I', 'N', 'F', 'O', 'R', 'M', 'A', 'T', 'I', 'O', 'N', ' ', 'F', 'O', 'R', ' ', 'S', 'M', 'I',
    'N', 'P', 'U', 'T', 'S'],
   ['#', '#', '#', '#', '#', '#', '#', '#', '#', '#', '#', '#', '#', '#', '#', '#', '#', '#', '#', '#', '#', '#',
    '#', '#', '#', '#', '#', '#', '#', '#', '#', '#', '#', '#', '#'],
   ['B', 'l', 'o', 'c', 'k', ' ', 'S', 'M', 'I', 'N', 'P', 'U', 'T', 'S', ' '],
   [' ', ' ', ' ', ' ', '2', ' ', '1', '.', '1', '6', '6', '3', '7', '0', 'e', '-', '0', '5', ' ', '#', ' ', 'G',
    'f', ' '],
   [' ', ' ', ' ', ' ', '3', ' ', '1', '.', '1', '8', '5', '0', '0', '0', 'e', '-', '0', '1', ' ', '#', ' ', 'a', 'S'],
   [],
   ['#', '#', '#', '#', '#', '#', '#', '#', '#', '#', '#', '#', '#', '#', '#', '#', '#', '#', '#', '#', '#', '#',
    '#', '#', '#', '#', '#', '#', '#', '#', '#', '#', '#', '#', '#'],
   ['#', '#', ' ', 'I', 'N', 'F', 'O', 'R', 'M', 'A', 'T', 'I', 'O', 'N', ' ', 'F', 'O', 'R', ' ', 'M', 'A', 'S', 'S'],
   ['#', '#', '#', '#', '#', '#', '#', '#', '#', '#', '#', '#', '#', '#', '#', '#', '#', '#', '#', '#', '#', '#',
    '#', '#', '#', '#', '#', '#', '#', '#', '#', '#', '#', '#', '#'],
   ['B', 'l', 'o', 'c', 'k', ' ', 'M', 'A', 'S', 'S', ' '],
   [' ', ' ', ' ', ' ', '1', ' ', '4', '.', '7', '0', '0', '0', '0', '0', 'e', '-', '0', '3', ' ', '#', ' ', 'M',
    'D', ' '],
   [' ', ' ', ' ', ' ', '2', ' ', '2', '.', '2', '0', '0', '0', '0', '0', 'e', '-', '0', '3', ' ', '#', ' ', 'M',
    'U', ' '],
   [' ', ' ', ' ', ' ', '3', ' ', '9', '.', '6', '0', '0', '0', '0', '0', 'e', '-', '0', '2', ' ', '#', ' ', 'M',
    'S', ' '],
   [' ', ' ', ' ', ' ', '4', ' ', '1', '.', '2', '8', '0', '0', '0', '0', 'e', '+', '0', '0', ' ', '#', ' ', 'M',
    'C', ' '],
   [' ', ' ', ' ', ' ', '5', ' ', '4', '.', '1', '8', '0', '0', '0', '0', 'e', '+', '0', '0', ' ', '#', ' ', 'M',
    'B', ' '],
   [' ', ' ', ' ', ' ', '6', ' ', '1', '.', '7', '3', '1', '0', '0', '0', 'e', '+', '0', '2', ' ', '#', ' ', 'M',
    'T', ' '],
   [' ', ' ', ' ', '1', '1', ' ', '5', '.', '1', '1', '0', '0', '0', '0', 'e', '-', '0', '4', ' ', '#', ' ', 'M',
    'e', ' '],
   [' ', ' ', ' ', '1', '3', ' ', '1', '.', '0', '5', '6', '6', '0', '0', 'e', '-', '0', '1', ' ', '#', ' ', 'M',
    'M', 'U', ' '],
   [' ', ' ', ' ', '1', '5', ' ', '1', '.', '7', '7', '7', '0', '0', '0', 'e', '+', '0', '0', ' ', '#', ' ', 'M',
    'T', 'A', ' '],
   [' ', ' ', ' ', '2', '3', ' ', '9', '.', '1', '1', '8', '7', '5', '0', 'e', '+', '0', '1', ' ', '#', ' ', 'M',
    'Z', ' '],
   [' ', ' ', ' ', '2', '4', ' ', '8', '.', '0', '3', '8', '7', '0', '0', 'e', '+', '0', '1', ' ', '#', ' ', 'M', 'W'],
   [' ', ' ', ' ', '2', '5', ' ', '1', '.', '2', '5', '0', '9', '0', '0', 'e', '+', '0', '2', ' ', '#', ' ', 'M',
    'H', ' '],
   ['#', '#', ' ', ' ', 'N', 'o', 't', ' ', 'd', 'e', 'p', 'e', 'n', 'd', 'e', 'n', 't', ' ', 'p', 'a', 'r', 'a',
    'm', 'a', 't', 'e', 'r', '.'],
   ['#', '#', ' ', 'T', 'h', 'o', 's', 'e', ' ', 'v', 'a', 'l', 'u', 'e', 's', ' ', 's', 'h', 'o', 'u', 'l', 'd',
    ' ', 'b', 'e', ' ', 'e', 'd', 'i', 't', 'e', 'd', ' ', 'f', 'o', 'l', 'l', 'o', 'w', 'i', 'n', 'g', ' ', 'a',
    'n', 'a', 'l', 'y', 't', 'i', 'c', 'a', 'l', ' ', 't', 'h', 'e', ' '],
   ['#', '#', ' ', 'a', 'n', 'a', 'l', 'y', 't', 'i', 'c', 'a', 'l', ' ', 'e', 'x', 'p', 'r', 'e', 's', 's', 'i',
    'o', 'n', '.', ' ', 'S', 'o', 'm', 'e', ' ', 'g', 'e', 'n', 'e', 'r', 'a', 't', 'o', 'r', ' ', 'c', 'o', 'u',
    'l', 'd', ' ', 's', 'i', 'm', 'p', 'l', 'y', ' ', 'i', 'g', 'n', 'o', 'r', 'e', ' '],
   ['#', '#', ' ', 't', 'h', 'o', 's', 'e', ' ', 'v', 'a', 'l', 'u', 'e', 's', ' ', 'a', 'n', 'd', ' ', 'u', 's',
    'e', ' ', 't', 'h', 'e', ' ', 'a', 'n', 'a', 'l', 'y', 't', 'i', 'c', 'a', 'l', ' ', 'e', 'x', 'p', 'r', 'e',
    's', 's', 'i', 'o', 'n'],
   [' ', ' ', '2', '2', ' ', '0', '.', '0', '0', '0', '0', '0', '0', ' ', '#', ' ', 'a', ' ', ':', ' ', '0', '.',
    '0', ' '],
   [' ', ' ', '2', '1', ' ', '0', '.', '0', '0', '0', '0', '0', '0', ' ', '#', ' ', 'g', ' ', ':', ' ', '0', '.',
    '0', ' '],
   [' ', ' ', '9', '0', '0', '0', '0', '0', '1', ' ', '0', '.', '0', '0', '0', '0', '0', '0', ' ', '#', ' ', 'g',
    'h', 'A', ' ', ':', ' ', '0', '.', '0', ' '],
   [' ', ' ', '8', '2', ' ', '0', '.', '0', '0', '0', '0', '0', '0', ' ', '#', ' ', 'g', 'h', 'G', ' ', ':', ' ',
    '0', '.', '0', ' '],
   [' ', ' ', '1', '2', ' ', '0', '.', '0', '0', '0', '0', '0', '0', ' ', '#', ' ', 'v', 'e', ' ', ':', ' ', '0',
    '.', '0', ' '],
   [' ', ' ', '1', '4', ' ', '0', '.', '0', '0', '0', '0', '0', '0', ' ', '#', ' ', 'v', 'm', ' ', ':', ' ', '0',
    '.', '0', ' '],
   [' ', ' ', '1', '6', ' ', '0', '.', '0', '0', '0', '0', '0', '0', ' ', '#', ' ', 'v', 't', ' ', ':', ' ', '0',
    '.', '0', ' '],
   [' ', ' ', '9', '0', '0', '0', '0', '0', '2', ' ', '9', '1', '.', '1', '8', '7', '5', '0', '0', ' ', '#', ' ',
    'g', 'h', 'Z', ' ', ':', ' ', 'M', 'Z', ' '],
   [' ', ' ', ' ', '9', '0', '0', '0', '0', '0', '3', ' ', '8', '0', '.', '3', '8', '7', '0', '0', '0', ' ', '#',
    ' ', 'g', 'h', 'W', 'p', ' ', ':', ' ', 'M', 'W'],
   [' ', ' ', ' ', '9', '0', '0', '0', '0', '0', '4', ' ', '8', '0', '.', '3', '8', '7', '0', '0', '0', ' ', '#',
    ' ', 'g', 'h', 'W', 'm', ' ', ':', ' ', 'M', 'W'],
   [' ', ' ', '2', '5', '0', ' ', '9', '1', '.', '1', '8', '7', '5', '0', '0', ' ', '#', ' ', 'G', '0', ' ', ':',
    ' ', 'M', 'Z', ' '],
   [' ', ' ', ' ', '2', '5', '1', ' ', '8', '0', '.', '3', '8', '7', '0', '0', '0', ' ', '#', ' ', 'G', '+', ' ',
    ':', ' ', 'M', 'W'],
   [],
   ['#', '#', '#', '#', '#', '#', '#', '#', '#', '#', '#', '#', '#', '#', '#', '#', '#', '#', '#', '#', '#', '#',
    '#', '#', '#', '#', '#', '#', '#', '#', '#', '#', '#', '#', '#'],
   ['#', '#', ' ', 'I', 'N', 'F', 'O', 'R', 'M', 'A', 'T', 'I', 'O', 'N', ' ', 'F', 'O', 'R', ' ', 'D', 'E', 'C',
    'A', 'Y'],
   ['#', '#', '#', '#', '#', '#', '#', '#', '#', '#', '#', '#', '#', '#', '#', '#', '#', '#', '#', '#', '#', '#',
    '#', '#', '#', '#', '#', '#', '#', '#', '#', '#', '#', '#', '#'],
   ['D', 'E', 'C', 'A', 'Y', ' ', ' ', ' ', '6', ' ', '1', '.', '5', '0', '8', '3', '3', '6', 'e', '+', '0', '0', ' '],
   ['D', 'E', 'C', 'A', 'Y', ' ', ' ', '2', '3', ' ', '2', '.', '4', '9', '5', '2', '0', '0', 'e', '+', '0', '0', ' '],
   ['D', 'E', 'C', 'A', 'Y', ' ', ' ', '2', '4', ' ', '2', '.', '0', '8', '5', '0', '0', '0', 'e', '+', '0', '0', ' '],
   ['D', 'E', 'C', 'A', 'Y', ' ', ' ', '2', '5', ' ', '4', '.', '0', '7', '0', '0', '0', '0', 'e', '-', '0', '3', ' '],
   ['#', '#', ' ', ' ', 'N', 'o', 't', ' ', 'd', 'e', 'p', 'e', 'n', 'd', 'e', 'n', 't', ' ', 'p', 'a', 'r', 'a',
    'm', 'a', 't', 'e', 'r', '.'],
   ['#', '#', ' ', 'T', 'h', 'o', 's', 'e', ' ', 'v', 'a', 'l', 'u', 'e', 's', ' ', 's', 'h', 'o', 'u', 'l', 'd',
    ' ', 'b', 'e', ' ', 'e', 'd', 'i', 't', 'e', 'd', ' ', 'f', 'o', 'l', 'l', 'o', 'w', 'i', 'n', 'g', ' ', 'a',
    'n', 'a', 'l', 'y', 't', 'i', 'c', 'a', 'l', ' ', 't', 'h', 'e', ' '],
   ['#', '#', ' ', 'a', 'n', 'a', 'l', 'y', 't', 'i', 'c', 'a', 'l', ' ', 'e', 'x', 'p', 'r', 'e', 's', 's', 'i',
    'o', 'n', '.', ' ', 'S', 'o', 'm', 'e', ' ', 'g', 'e', 'n', 'e', 'r', 'a', 't', 'o', 'r', ' ', 'c', 'o', 'u',
    'l', 'd', ' ', 's', 'i', 'm', 'p', 'l', 'y', ' ', 'i', 'g', 'n', 'o', 'r', 'e', ' '],
   ['#', '#', ' ', 't', 'h', 'o', 's', 'e', ' ', 'v', 'a', 'l', 'u', 'e', 's', ' ', 'a', 'n', 'd', ' ', 'u', 's',
    'e', ' ', 't', 'h', 'e', ' ', 'a', 'n', 'a', 'l', 'y', 't', 'i', 'c', 'a', 'l', ' ', 'e', 'x', 'p', 'r', 'e',
    's', 's', 'i', 'o', 'n'],
   ['D', 'E', 'C', 'A', 'Y', ' ', ' ', '2', '2', ' ', '0', '.', '0', '0', '0', '0', '0', '0', ' ', '#', ' ', 'a',
    ' ', ':', ' ', '0', '.', '0', ' '],
   ['D', 'E', 'C', 'A', 'Y', ' ', ' ', '2', '1', ' ', '0', '.', '0', '0', '0', '0', '0', '0', ' ', '#', ' ', 'g',
    ' ', ':', ' ', '0', '.', '0', ' '],
   ['D', 'E', 'C', 'A', 'Y', ' ', ' ', '9', '0', '0', '0', '0', '0', '1', ' ', '0', '.', '0', '0', '0', '0', '0',
    '0', ' ', '#', ' ', 'g', 'h', 'A', ' ', ':', ' ', '0', '.', '0', ' '],
   ['D', 'E', 'C', 'A', 'Y', ' ', ' ', '8', '2', ' ', '0', '.', '0', '0', '0', '0', '0', '0', ' ', '#', ' ', 'g',
    'h', 'G', ' ', ':', ' ', '0', '.', '0', ' '],
   ['D', 'E', 'C', 'A', 'Y', ' ', ' ', '1', '2', ' ', '0', '.', '0', '0', '0', '0', '0', '0', ' ', '#', ' ', 'v',
    'e', ' ', ':', ' ', '0', '.', '0', ' '],
   ['D', 'E', 'C', 'A', 'Y', ' ', ' ', '1', '4', ' ', '0', '.', '0', '0', '0', '0', '0', '0', ' ', '#', ' ', 'v',
    'm', ' ', ':', ' ', '0', '.', '0', ' '],
   ['D', 'E', 'C', 'A', 'Y', ' ', ' ', '1', '6', ' ', '0', '.', '0', '0', '0', '0', '0', '0', ' ', '#', ' ', 'v',
    't', ' ', ':', ' ', '0', '.', '0', ' '],
   ['D', 'E', 'C', 'A', 'Y', ' ', ' ', '1', '1', ' ', '0', '.', '0', '0', '0', '0', '0', '0', ' ', '#', ' ', 'e',
    '-', ' ', ':', ' ', '0', '.', '0', ' '],
   ['D', 'E', 'C', 'A', 'Y', ' ', ' ', '1', '3', ' ', '0', '.', '0', '0', '0', '0', '0', '0', ' ', '#', ' ', 'm',
    'u', '-', ' ', ':', ' ', '0', '.', '0', ' '],
   ['D', 'E', 'C', 'A', 'Y', ' ', ' ', '1', '5', ' ', '0', '.', '0', '0', '0', '0', '0', '0', ' ', '#', ' ', 't',
    'a', '-', ' ', ':', ' ', '0', '.', '0', ' '],
   ['D', 'E', 'C', 'A', 'Y', ' ', ' ', '2', ' ', '0', '.', '0', '0', '0', '0', '0', '0', ' ', '#', ' ', 'u', ' ',
    ':', ' ', '0', '.', '0', ' '],
   ['D', 'E', 'C', 'A', 'Y', ' ', ' ', '4', ' ', '0', '.', '0', '0', '0', '0', '0', '0', ' ', '#', ' ', 'c', ' ',
    ':', ' ', '0', '.', '0', ' '],
   ['D', 'E', 'C', 'A', 'Y', ' ', ' ', '1', ' ', '0', '.', '0', '0', '0', '0', '0', '0', ' ', '#', ' ', 'd', ' ',
    ':', ' ', '0', '.', '0', ' '],
   ['D', 'E', 'C', 'A', 'Y', ' ', ' ', '3', ' ', '0', '.', '0', '0', '0', '0', '0', '0', ' ', '#', ' ', 's', ' ',
    ':', ' ', '0', '.', '0', ' '],
   ['D', 'E', 'C', 'A', 'Y', ' ', ' ', '5', ' ', '0', '.', '0', '0', '0', '0', '0', '0', ' ', '#', ' ', 'b', ' ',
    ':', ' ', '0', '.', '0', ' '],
   ['D', 'E', 'C', 'A', 'Y', ' ', ' ', '9', '0', '0', '0', '0', '0', '2', ' ', '2', '.', '4', '9', '5', '2', '0',
    '0', ' ', '#', ' ', 'g', 'h', 'Z', ' ', ':', ' ', 'W', 'Z', ' '],
   ['D', 'E', 'C', 'A', 'Y', ' ', ' ', '9', '0', '0', '0', '0', '0', '3', ' ', '2', '.', '0', '8', '5', '0', '0',
    '0', ' ', '#', ' ', 'g', 'h', 'W', 'p', ' ', ':', ' ', 'W', 'W', ' '],
   ['D', 'E', 'C', 'A', 'Y', ' ', ' ', '9', '0', '0', '0', '0', '0', '4', ' ', '2', '.', '0', '8', '5', '0', '0',
    '0', ' ', '#', ' ', 'g', 'h', 'W', 'm', ' ', ':', ' ', 'W', 'W', ' '],
   ['D', 'E', 'C', 'A', 'Y', ' ', ' ', '2', '5', '0', ' ', '2', '.', '4', '9', '5', '2', '0', '0', ' ', '#', ' ',
    'G', '0', ' ', ':', ' ', 'W', 'Z', ' '],
   ['D', 'E', 'C', 'A', 'Y', ' ', ' ', '2', '5', '1', ' ', '2', '.', '0', '8', '5', '0', '0', '0', ' ', '#', ' ',
    'G', '+', ' ', ':', ' ', 'W', 'W', ' '],
   [],
   ['#', '#', '#', '#', '#', '#', '#', '#', '#', '#', '#', '#', '#', '#', '#', '#', '#', '#', '#', '#', '#', '#',
    '#', '#', '#', '#', '#', '#', '#', '#', '#', '#', '#', '#', '#'],
   ['#', '#', ' ', 'I', 'N', 'F', 'O', 'R', 'M', 'A', 'T', 'I', 'O', 'N', ' ', 'F', 'O', 'R', ' ', 'C', 'K', 'M',
    'B', 'L', 'O', 'C', 'K'],
   ['#', '#', '#', '#', '#', '#', '#', '#', '#', '#', '#', '#', '#', '#', '#', '#', '#', '#', '#', '#', '#', '#',
    '#', '#', '#', '#', '#', '#', '#', '#', '#', '#', '#', '#', '#'],
   ['B', 'l', 'o', 'c', 'k', ' ', 'C', 'K', 'M', 'B', 'L', 'O', 'C', 'K', ' '],
   [' ', ' ', ' ', ' ', '1', ' ', '2', '.', '2', '7', '7', '3', '6', '0', 'e', '-', '0', '1', ' ', '#', ' ', 'c',
    'a', 'b', 'i', ' '],
   [' ', ' ', ' ', ' ', '2', ' ', '9', '.', '7', '4', '3', '4', '0', '0', 'e', '-', '0', '1', ' ', '#', ' ', 'C',
    'K', 'M', '1', '1', ' '],
   [' ', ' ', ' ', ' ', '3', ' ', '2', '.', '2', '5', '0', '6', '0', '0', 'e', '-', '0', '1', ' ', '#', ' ', 'C',
    'K', 'M', '1', '2', ' '],
   [' ', ' ', ' ', ' ', '4', ' ', '3', '.', '5', '7', '0', '0', '0', '0', 'e', '-', '0', '3', ' ', '#', ' ', 'C',
    'K', 'M', '1', '3', ' '],
   [' ', ' ', ' ', ' ', '5', ' ', '2', '.', '2', '4', '9', '2', '0', '0', 'e', '-', '0', '1', ' ', '#', ' ', 'C',
    'K', 'M', '2', '1', ' '],
   [' ', ' ', ' ', ' ', '6', ' ', '9', '.', '7', '3', '5', '1', '0', '0', 'e', '-', '0', '1', ' ', '#', ' ', 'C',
    'K', 'M', '2', '2', ' '],
   [' ', ' ', ' ', ' ', '7', ' ', '4', '.', '1', '1', '0', '0', '0', '0', 'e', '-', '0', '2', ' ', '#', ' ', 'C',
    'K', 'M', '2', '3', ' '],
   [' ', ' ', ' ', ' ', '8', ' ', '8', '.', '7', '5', '0', '0', '0', '0', 'e', '-', '0', '3', ' ', '#', ' ', 'C',
    'K', 'M', '3', '1', ' '],
   [' ', ' ', ' ', ' ', '9', ' ', '4', '.', '0', '3', '0', '0', '0', '0', 'e', '-', '0', '2', ' ', '#', ' ', 'C',
    'K', 'M', '3', '2', ' '],
   [' ', ' ', ' ', '1', '0', ' ', '9', '.', '9', '9', '1', '5', '0', '0', 'e', '-', '0', '1', ' ', '#', ' ', 'C',
    'K', 'M', '3', '3', ' '],
   [' ', ' ', ' ', ' '],
   []]

/-- Postamble of set B. -/
def charsPostB : List (List Char) := [
   [],
   [],
   ['#', '#', '#', '#', '#', '#', '#', '#', '#', '#', '#', '#', '#', '#', '#', '#', '#', '#', '#', '#', '#', '#',
    '#', '#', '#', '#', '#', '#', '#', '#', '#', '#', '#', '#', '#'],
   ['#', '#', ' ', 'I', 'N', 'F', 'O', 'R', 'M', 'A', 'T', 'I', 'O', 'N', ' ', 'F', 'O', 'R', ' ', 'N', 'E', 'W',
    'C', 'O', 'U', 'P', 'A', 'U', 'X'],
   ['#', '#', '#', '#', '#', '#', '#', '#', '#', '#', '#', '#', '#', '#', '#', '#', '#', '#', '#', '#', '#', '#',
    '#', '#', '#', '#', '#', '#', '#', '#', '#', '#', '#', '#', '#'],
   ['B', 'l', 'o', 'c', 'k', ' ', 'N', 'E', 'W', 'C', 'O', 'U', 'P', 'a', 'u', 'x', ' '],
   [' ', ' ', ' ', ' ', '0', ' ', '1', '.', '0', '0', '0', '0', '0', '0', 'e', '+', '0', '0', ' ', '#', ' ', 'W',
    'C', ' '],
   [],
   ['#', '#', '#', '#', '#', '#', '#', '#', '#', '#', '#', '#', '#', '#', '#', '#', '#', '#', '#', '#', '#', '#',
    '#', '#', '#', '#', '#', '#', '#', '#', '#', '#', '#', '#', '#'],
   ['#', '#', ' ', 'I', 'N', 'F', 'O', 'R', 'M', 'A', 'T', 'I', 'O', 'N', ' ', 'F', 'O', 'R', ' ', 'Y', 'U', 'K',
    'A', 'W', 'A'],
   ['#', '#', '#', '#', '#', '#', '#', '#', '#', '#', '#', '#', '#', '#', '#', '#', '#', '#', '#', '#', '#', '#',
    '#', '#', '#', '#', '#', '#', '#', '#', '#', '#', '#', '#', '#'],
   ['B', 'l', 'o', 'c', 'k', ' ', 'Y', 'U', 'K', 'A', 'W', 'A', ' '],
   [' ', ' ', ' ', ' ', '1', ' ', '4', '.', '7', '0', '0', '0', '0', '0', 'e', '-', '0', '3', ' ', '#', ' ', 'y',
    'm', 'd', 'o', ' '],
   [' ', ' ', ' ', ' ', '2', ' ', '2', '.', '2', '0', '0', '0', '0', '0', 'e', '-', '0', '3', ' ', '#', ' ', 'y',
    'm', 'u', 'p', ' '],
   [' ', ' ', ' ', ' ', '3', ' ', '9', '.', '6', '0', '0', '0', '0', '0', 'e', '-', '0', '2', ' ', '#', ' ', 'y',
    'm', 's', ' '],
   [' ', ' ', ' ', ' ', '4', ' ', '1', '.', '2', '8', '0', '0', '0', '0', 'e', '+', '0', '0', ' ', '#', ' ', 'y',
    'm', 'c', ' '],
   [' ', ' ', ' ', ' ', '5', ' ', '4', '.', '1', '8', '0', '0', '0', '0', 'e', '+', '0', '0', ' ', '#', ' ', 'y',
    'm', 'b', ' '],
   [' ', ' ', ' ', ' ', '6', ' ', '1', '.', '7', '3', '1', '0', '0', '0', 'e', '+', '0', '2', ' ', '#', ' ', 'y',
    'm', 't', ' '],
   [' ', ' ', ' ', '1', '1', ' ', '5', '.', '1', '1', '0', '0', '0', '0', 'e', '-', '0', '4', ' ', '#', ' ', 'y',
    'm', 'e', ' '],
   [' ', ' ', ' ', '1', '3', ' ', '1', '.', '0', '5', '6', '6', '0', '0', 'e', '-', '0', '1', ' ', '#', ' ', 'y',
    'm', 'm', ' '],
   [' ', ' ', ' ', '1', '5', ' ', '1', '.', '7', '7', '7', '0', '0', '0', 'e', '+', '0', '0', ' ', '#', ' ', 'y',
    'm', 't', 'a', 'u', ' '],
   ['#', '=', '=', '=', '=', '=', '=', '=', '=', '=', '=', '=', '=', '=', '=', '=', '=', '=', '=', '=', '=', '=',
    '=', '=', '=', '=', '=', '=', '=', '=', '=', '=', '=', '=', '=', '=', '=', '=', '=', '=', '=', '=', '=', '=',
    '=', '=', '=', '=', '=', '=', '=', '=', '=', '=', '=', '=', '=', '=', '=', '='],
   ['#', ' ', 'Q', 'U', 'A', 'N', 'T', 'U', 'M', ' ', 'N', 'U', 'M', 'B', 'E', 'R', 'S', ' ', 'O', 'F', ' ', 'N',
    'E', 'W', ' ', 'S', 'T', 'A', 'T', 'E', '(', 'S', ')', ' ', '(', 'N', 'O', 'N', ' ', 'S', 'M', ' ', 'P', 'D',
    'G', ' ', 'C', 'O', 'D', 'E', ')'],
   ['#', '=', '=', '=', '=', '=', '=', '=', '=', '=', '=', '=', '=', '=', '=', '=', '=', '=', '=', '=', '=', '=',
    '=', '=', '=', '=', '=', '=', '=', '=', '=', '=', '=', '=', '=', '=', '=', '=', '=', '=', '=', '=', '=', '=',
    '=', '=', '=', '=', '=', '=', '=', '=', '=', '=', '=', '=', '=', '=', '=', '='],
   [],
   ['B', 'l', 'o', 'c', 'k', ' ', 'Q', 'N', 'U', 'M', 'B', 'E', 'R', 'S', ' ', '9', '0', '0', '0', '0', '0', '1',
    ' ', ' ', '#', ' ', 'g', 'h', 'A', ' '],
   [' ', ' ', ' ', ' ', ' ', ' ', ' ', ' ', '1', ' ', '0', ' ', ' ', '#', ' ', '3', ' ', 't', 'i', 'm', 'e', 's',
    ' ', 'e', 'l', 'e', 'c', 't', 'r', 'i', 'c', ' ', 'c', 'h', 'a', 'r', 'g', 'e'],
   [' ', ' ', ' ', ' ', ' ', ' ', ' ', ' ', '2', ' ', '-', '1', ' ', ' ', '#', ' ', 'n', 'u', 'm', 'b', 'e', 'r',
    ' ', 'o', 'f', ' ', 's', 'p', 'i', 'n', ' ', 's', 't', 'a', 't', 'e', 's', ' ', '(', '2', 'S', '+', '1', ')'],
   [' ', ' ', ' ', ' ', ' ', ' ', ' ', ' ', '3', ' ', '1', ' ', ' ', '#', ' ', 'c', 'o', 'l', 'o', 'u', 'r', ' ',
    'r', 'e', 'p', ' ', '(', '1', ':', ' ', 's', 'i', 'n', 'g', 'l', 'e', 't', ',', ' ', '3', ':', ' ', 't', 'r',
    'i', 'p', 'l', 'e', 't', ',', ' ', '8', ':', ' ', 'o', 'c', 't', 'e', 't', ')'],
   [' ', ' ', ' ', ' ', ' ', ' ', ' ', ' ', '4', ' ', '1', ' ', ' ', '#', ' ', 'P', 'a', 'r', 't', 'i', 'c', 'l',
    'e', '/', 'A', 'n', 't', 'i', 'p', 'a', 'r', 't', 'i', 'c', 'l', 'e', ' ', 'd', 'i', 's', 't', 'i', 'n', 'c',
    't', 'i', 'o', 'n', ' ', '(', '0', '=', 'o', 'w', 'n', ' ', 'a', 'n', 't', 'i', ')'],
   ['B', 'l', 'o', 'c', 'k', ' ', 'Q', 'N', 'U', 'M', 'B', 'E', 'R', 'S', ' ', '9', '0', '0', '0', '0', '0', '2',
    ' ', ' ', '#', ' ', 'g', 'h', 'Z', ' '],
   [' ', ' ', ' ', ' ', ' ', ' ', ' ', ' ', '1', ' ', '0', ' ', ' ', '#', ' ', '3', ' ', 't', 'i', 'm', 'e', 's',
    ' ', 'e', 'l', 'e', 'c', 't', 'r', 'i', 'c', ' ', 'c', 'h', 'a', 'r', 'g', 'e'],
   [' ', ' ', ' ', ' ', ' ', ' ', ' ', ' ', '2', ' ', '-', '1', ' ', ' ', '#', ' ', 'n', 'u', 'm', 'b', 'e', 'r',
    ' ', 'o', 'f', ' ', 's', 'p', 'i', 'n', ' ', 's', 't', 'a', 't', 'e', 's', ' ', '(', '2', 'S', '+', '1', ')'],
   [' ', ' ', ' ', ' ', ' ', ' ', ' ', ' ', '3', ' ', '1', ' ', ' ', '#', ' ', 'c', 'o', 'l', 'o', 'u', 'r', ' ',
    'r', 'e', 'p', ' ', '(', '1', ':', ' ', 's', 'i', 'n', 'g', 'l', 'e', 't', ',', ' ', '3', ':', ' ', 't', 'r',
    'i', 'p', 'l', 'e', 't', ',', ' ', '8', ':', ' ', 'o', 'c', 't', 'e', 't', ')'],
   [' ', ' ', ' ', ' ', ' ', ' ', ' ', ' ', '4', ' ', '1', ' ', ' ', '#', ' ', 'P', 'a', 'r', 't', 'i', 'c', 'l',
    'e', '/', 'A', 'n', 't', 'i', 'p', 'a', 'r', 't', 'i', 'c', 'l', 'e', ' ', 'd', 'i', 's', 't', 'i', 'n', 'c',
    't', 'i', 'o', 'n', ' ', '(', '0', '=', 'o', 'w', 'n', ' ', 'a', 'n', 't', 'i', ')'],
   ['B', 'l', 'o', 'c', 'k', ' ', 'Q', 'N', 'U', 'M', 'B', 'E', 'R', 'S', ' ', '9', '0', '0', '0', '0', '0', '3',
    ' ', ' ', '#', ' ', 'g', 'h', 'W', 'p', ' '],
   [' ', ' ', ' ', ' ', ' ', ' ', ' ', ' ', '1', ' ', '3', ' ', ' ', '#', ' ', '3', ' ', 't', 'i', 'm', 'e', 's',
    ' ', 'e', 'l', 'e', 'c', 't', 'r', 'i', 'c', ' ', 'c', 'h', 'a', 'r', 'g', 'e'],
   [' ', ' ', ' ', ' ', ' ', ' ', ' ', ' ', '2', ' ', '-', '1', ' ', ' ', '#', ' ', 'n', 'u', 'm', 'b', 'e', 'r',
    ' ', 'o', 'f', ' ', 's', 'p', 'i', 'n', ' ', 's', 't', 'a', 't', 'e', 's', ' ', '(', '2', 'S', '+', '1', ')'],
   [' ', ' ', ' ', ' ', ' ', ' ', ' ', ' ', '3', ' ', '1', ' ', ' ', '#', ' ', 'c', 'o', 'l', 'o', 'u', 'r', ' ',
    'r', 'e', 'p', ' ', '(', '1', ':', ' ', 's', 'i', 'n', 'g', 'l', 'e', 't', ',', ' ', '3', ':', ' ', 't', 'r',
    'i', 'p', 'l', 'e', 't', ',', ' ', '8', ':', ' ', 'o', 'c', 't', 'e', 't', ')'],
   [' ', ' ', ' ', ' ', ' ', ' ', ' ', ' ', '4', ' ', '1', ' ', ' ', '#', ' ', 'P', 'a', 'r', 't', 'i', 'c', 'l',
    'e', '/', 'A', 'n', 't', 'i', 'p', 'a', 'r', 't', 'i', 'c', 'l', 'e', ' ', 'd', 'i', 's', 't', 'i', 'n', 'c',
    't', 'i', 'o', 'n', ' ', '(', '0', '=', 'o', 'w', 'n', ' ', 'a', 'n', 't', 'i', ')'],
   ['B', 'l', 'o', 'c', 'k', ' ', 'Q', 'N', 'U', 'M', 'B', 'E', 'R', 'S', ' ', '9', '0', '0', '0', '0', '0', '4',
    ' ', ' ', '#', ' ', 'g', 'h', 'W', 'm', ' '],
   [' ', ' ', ' ', ' ', ' ', ' ', ' ', ' ', '1', ' ', '-', '3', ' ', ' ', '#', ' ', '3', ' ', 't', 'i', 'm', 'e',
    's', ' ', 'e', 'l', 'e', 'c', 't', 'r', 'i', 'c', ' ', 'c', 'h', 'a', 'r', 'g', 'e'],
   [' ', ' ', ' ', ' ', ' ', ' ', ' ', ' ', '2', ' ', '-', '1', ' ', ' ', '#', ' ', 'n', 'u', 'm', 'b', 'e', 'r',
    ' ', 'o', 'f', ' ', 's', 'p', 'i', 'n', ' ', 's', 't', 'a', 't', 'e', 's', ' ', '(', '2', 'S', '+', '1', ')'],
   [' ', ' ', ' ', ' ', ' ', ' ', ' ', ' ', '3', ' ', '1', ' ', ' ', '#', ' ', 'c', 'o', 'l', 'o', 'u', 'r', ' ',
    'r', 'e', 'p', ' ', '(', '1', ':', ' ', 's', 'i', 'n', 'g', 'l', 'e', 't', ',', ' ', '3', ':', ' ', 't', 'r',
    'i', 'p', 'l', 'e', 't', ',', ' ', '8', ':', ' ', 'o', 'c', 't', 'e', 't', ')'],
   [' ', ' ', ' ', ' ', ' ', ' ', ' ', ' ', '4', ' ', '1', ' ', ' ', '#', ' ', 'P', 'a', 'r', 't', 'i', 'c', 'l',
    'e', '/', 'A', 'n', 't', 'i', 'p', 'a', 'r', 't', 'i', 'c', 'l', 'e', ' ', 'd', 'i', 's', 't', 'i', 'n', 'c',
    't', 'i', 'o', 'n', ' ', '(', '0', '=', 'o', 'w', 'n', ' ', 'a', 'n', 't', 'i', ')'],
   ['B', 'l', 'o', 'c', 'k', ' ', 'Q', 'N', 'U', 'M', 'B', 'E', 'R', 'S', ' ', '8', '2', ' ', ' ', '#', ' ', 'g',
    'h', 'G', ' '],
   [' ', ' ', ' ', ' ', ' ', ' ', ' ', ' ', '1', ' ', '0', ' ', ' ', '#', ' ', '3', ' ', 't', 'i', 'm', 'e', 's',
    ' ', 'e', 'l', 'e', 'c', 't', 'r', 'i', 'c', ' ', 'c', 'h', 'a', 'r', 'g', 'e'],
   [' ', ' ', ' ', ' ', ' ', ' ', ' ', ' ', '2', ' ', '-', '1', ' ', ' ', '#', ' ', 'n', 'u', 'm', 'b', 'e', 'r',
    ' ', 'o', 'f', ' ', 's', 'p', 'i', 'n', ' ', 's', 't', 'a', 't', 'e', 's', ' ', '(', '2', 'S', '+', '1', ')'],
   [' ', ' ', ' ', ' ', ' ', ' ', ' ', ' ', '3', ' ', '8', ' ', ' ', '#', ' ', 'c', 'o', 'l', 'o', 'u', 'r', ' ',
    'r', 'e', 'p', ' ', '(', '1', ':', ' ', 's', 'i', 'n', 'g', 'l', 'e', 't', ',', ' ', '3', ':', ' ', 't', 'r',
    'i', 'p', 'l', 'e', 't', ',', ' ', '8', ':', ' ', 'o', 'c', 't', 'e', 't', ')'],
   [' ', ' ', ' ', ' ', ' ', ' ', ' ', ' ', '4', ' ', '1', ' ', ' ', '#', ' ', 'P', 'a', 'r', 't', 'i', 'c', 'l',
    'e', '/', 'A', 'n', 't', 'i', 'p', 'a', 'r', 't', 'i', 'c', 'l', 'e', ' ', 'd', 'i', 's', 't', 'i', 'n', 'c',
    't', 'i', 'o', 'n', ' ', '(', '0', '=', 'o', 'w', 'n', ' ', 'a', 'n', 't', 'i', ')'],
   ['B', 'l', 'o', 'c', 'k', ' ', 'Q', 'N', 'U', 'M', 'B', 'E', 'R', 'S', ' ', '2', '5', '0', ' ', ' ', '#', ' ',
    'G', '0', ' '],
   [' ', ' ', ' ', ' ', ' ', ' ', ' ', ' ', '1', ' ', '0', ' ', ' ', '#', ' ', '3', ' ', 't', 'i', 'm', 'e', 's',
    ' ', 'e', 'l', 'e', 'c', 't', 'r', 'i', 'c', ' ', 'c', 'h', 'a', 'r', 'g', 'e'],
   [' ', ' ', ' ', ' ', ' ', ' ', ' ', ' ', '2', ' ', '1', ' ', ' ', '#', ' ', 'n', 'u', 'm', 'b', 'e', 'r', ' ',
    'o', 'f', ' ', 's', 'p', 'i', 'n', ' ', 's', 't', 'a', 't', 'e', 's', ' ', '(', '2', 'S', '+', '1', ')'],
   [' ', ' ', ' ', ' ', ' ', ' ', ' ', ' ', '3', ' ', '1', ' ', ' ', '#', ' ', 'c', 'o', 'l', 'o', 'u', 'r', ' ',
    'r', 'e', 'p', ' ', '(', '1', ':', ' ', 's', 'i', 'n', 'g', 'l', 'e', 't', ',', ' ', '3', ':', ' ', 't', 'r',
    'i', 'p', 'l', 'e', 't', ',', ' ', '8', ':', ' ', 'o', 'c', 't', 'e', 't', ')'],
   [' ', ' ', ' ', ' ', ' ', ' ', ' ', ' ', '4', ' ', '0', ' ', ' ', '#', ' ', 'P', 'a', 'r', 't', 'i', 'c', 'l',
    'e', '/', 'A', 'n', 't', 'i', 'p', 'a', 'r', 't', 'i', 'c', 'l', 'e', ' ', 'd', 'i', 's', 't', 'i', 'n', 'c',
    't', 'i', 'o', 'n', ' ', '(', '0', '=', 'o', 'w', 'n', ' ', 'a', 'n', 't', 'i', ')'],
   ['B', 'l', 'o', 'c', 'k', ' ', 'Q', 'N', 'U', 'M', 'B', 'E', 'R', 'S', ' ', '2', '5', '1', ' ', ' ', '#', ' ',
    'G', '+', ' '],
   [' ', ' ', ' ', ' ', ' ', ' ', ' ', ' ', '1', ' ', '3', ' ', ' ', '#', ' ', '3', ' ', 't', 'i', 'm', 'e', 's',
    ' ', 'e', 'l', 'e', 'c', 't', 'r', 'i', 'c', ' ', 'c', 'h', 'a', 'r', 'g', 'e'],
   [' ', ' ', ' ', ' ', ' ', ' ', ' ', ' ', '2', ' ', '1', ' ', ' ', '#', ' ', 'n', 'u', 'm', 'b', 'e', 'r', ' ',
    'o', 'f', ' ', 's', 'p', 'i', 'n', ' ', 's', 't', 'a', 't', 'e', 's', ' ', '(', '2', 'S', '+', '1', ')'],
   [' ', ' ', ' ', ' ', ' ', ' ', ' ', ' ', '3', ' ', '1', ' ', ' ', '#', ' ', 'c', 'o', 'l', 'o', 'u', 'r', ' ',
    'r', 'e', 'p', ' ', '(', '1', ':', ' ', 's', 'i', 'n', 'g', 'l', 'e', 't', ',', ' ', '3', ':', ' ', 't', 'r',
    'i', 'p', 'l', 'e', 't', ',', ' ', '8', ':', ' ', 'o', 'c', 't', 'e', 't', ')'],
   [' ', ' ', ' ', ' ', ' ', ' ', ' ', ' ', '4', ' ', '1', ' ', ' ', '#', ' ', 'P', 'a', 'r', 't', 'i', 'c', 'l',
    'e', '/', 'A', 'n', 't', 'i', 'p', 'a', 'r', 't', 'i', 'c', 'l', 'e', ' ', 'd', 'i', 's', 't', 'i', 'n', 'c',
    't', 'i', 'o', 'n', ' ', '(', '0', '=', 'o', 'w', 'n', ' ', 'a', 'n', 't', 'i', ')'],
   []]

/-- The lines of the two texts as characters. -/
def charLines : ModelSet → Scheme → List (List Char) × List (List Char)
  | .A, .alpha => (charsA, charsPostA)
  | .A, .mw => (charsAmw, charsPostA)
  | .B, .alpha => (charsB, charsPostB)
  | .B, .mw => (charsBmw, charsPostB)

theorem cardLines_chars (m : ModelSet) (s : Scheme) :
    cardLines m s = .ok ((charLines m s).1.map String.ofList, (charLines m s).2.map String.ofList) := by
  cases m <;> cases s <;> rfl

end Verif
