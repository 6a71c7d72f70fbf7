import Verif.Model.LegendGen
import Verif.Model.LegendTpl
import Verif.Model.LegendFile
import Verif.Props.Tpl
/-
C87: the bundled legend is what the generator makes of its template.
-/
set_option linter.unusedSimpArgs false

namespace Kolombos
open Spec

set_option maxRecDepth 20000 in
/-- The parts of the template, line by line. -/
def legendParts : List (List TplPart) := [
  [.format [] [['b','o','l','d'], ['h','i','_','g','r','e','e','n']] [],
   .text [' ',' ',' ',' ','_','_',' ',' ',' ',' ',' ',' ',' ',' ',' '],
   .format [] [['b','l','u','e']] [' ',' ',' ',' ',' ',' ',' ',' ',' ',' ',' ',' ',' ',' '],
   .text ['_','_',' ',' ',' ',' ',' ',' ',' ',' ',' ',' ',' ',' ',' ',' ',' ',' ','_','_'],
   .format [] [] [],
   .text ['\n']],
  [.format [] [['b','o','l','d'], ['h','i','_','g','r','e','e','n']] [],
   .text [' ',' ',' ','/',' ','/'],
   .format [] [['h','i','_','g','r','e','e','n']] [],
   .text ['_','_'],
   .format [] [['h','i','_','b','l','u','e']] [],
   .text ['_','_','_','_',' ',' ','/',' ','/','_','_','_',' ',' ','_','_','_','_',' ','_','_','_',' ',' ','/',' ','/','_',' ',' ','_','_','_','_',' '],
   .format [] [['h','i','_','y','e','l','l','o','w']] [],
   .text [' ','_','_','_','_','_'],
   .format [] [] [],
   .text ['\n']],
  [.format [] [['b','o','l','d'], ['g','r','e','e','n']] [' ',' ',' '],
   .text [' ',' ','/',' ','/','/','_','/'],
   .format [] [['c','y','a','n']] [],
   .text [' ','_','_',' ','\\','/',' ','/',' ','_','_',' ','\\'],
   .format [] [['m','a','g','e','n','t','a']] [' ',' ',' ',' '],
   .text ['/',' ','_','_',' ','\'','_','_',' ','\\','/',' ','_','_',' ','\\','/',' ','_','_',' ','\\'],
   .format [] [['y','e','l','l','o','w']] [' ',' ',' '],
   .text ['/',' ','_','_','_','/'],
   .format [] [] [],
   .text ['\n']],
  [.format [] [['b','o','l','d'], ['h','i','_','b','l','u','e']] [' '],
   .text [' ','/',' ',',','<',' '],
   .format [] [['c','y','a','n']] [],
   .text ['/',' ','/','_','/',' ','/',' ','/',' ','/','_','/',' '],
   .format [] [['m','a','g','e','n','t','a']] [' ',' ',' ',' '],
   .text ['/',' ','/',' ','/',' ','/',' ','/',' ','/',' ','/','_','/',' ','/',' ','/','_','/',' '],
   .format [] [['y','e','l','l','o','w']] [' ',' ',' '],
   .text ['(','_','_',' ',' ',')'],
   .format [] [] [],
   .text ['\n']],
  [.format [] [['b','o','l','d'], ['b','l','u','e']] [' ',' ',' ',' '],
   .text ['/','_','/','|','_','|'],
   .format [] [['b','l','u','e']] [],
   .text ['\\','_','_','_','_','/','_','/','\\','_','_','_','_'],
   .comment ['·','·','·','·','·','·','·','·'],
   .text ['/','_','/',' ','/','_','/',' ','/','_','/','\\','.','_','_','_','/','\\','_','_','_','_'],
   .format [] [['y','e','l','l','o','w']] [' ',' ',' '],
   .text ['/','_','_','_','_','/'],
   .format [] [] [],
   .text ['\n']],
  [.comment ['·','·','·','·','·','·','·','·','·','·'],
   .text [' ',' ',' ',' ',' ',' ',' '],
   .comment [],
   .text [' ',' ',' ',' ',' ',' ',' ',' ',' ',' ',' ',' ',' '],
   .comment ['·','·','·','·','·','·','·','·'],
   .text [' ',' ',' ',' ',' ',' ',' ',' ',' ',' ',' ',' ',' ',' ',' ',' ',' ',' ',' ',' ',' ',' ',' ',' '],
   .format [] [['h','i','_','y','e','l','l','o','w']] [],
   .text ['v'],
   .variable [] ['v','e','r'] [],
   .format [] [] [],
   .text ['\n']],
  [.text ['\n']],
  [.variable [] ['f','m','t','_','h','e','a','d','e','r'] [],
   .text ['C','H','A','R','A','C','T','E','R',' ','C','L','A','S','S','E','S'],
   .format [] [] [],
   .text ['\n']],
  [.text [' ',' '],
   .variable [] ['f','m','t','_','c','o','m','m','e','n','t'] [],
   .text ['<'],
   .format [] [] [],
   .variable [] ['f','m','t','_','c','c'] [],
   .text ['S'],
   .format [] [] [],
   .variable [] ['f','m','t','_','c','o','m','m','e','n','t'] [],
   .text ['>'],
   .format [] [] [],
   .text [' ',' ',' ','A','S','C','I','I',' ','w','h','i','t','e','s','p','a','c','e',' ','c','h','a','r','s',' ',' ',' ','0','9','-','0','d',',',' ','2','0',' ',' ',' ',' ',' ',' '],
   .variable [] ['f','m','t','_','p','a','r','a','m'] [],
   .text ['-','s',' ','-','S'],
   .format [] [] [],
   .text ['\n']],
  [.text [' ',' '],
   .variable [] ['f','m','t','_','c','o','m','m','e','n','t'] [],
   .text ['<'],
   .format [] [] [],
   .variable [] ['f','m','t','_','c','c'] [],
   .text ['C'],
   .format [] [] [],
   .variable [] ['f','m','t','_','c','o','m','m','e','n','t'] [],
   .text ['>'],
   .format [] [] [],
   .text [' ',' ',' ','A','S','C','I','I',' ','c','o','n','t','r','o','l',' ','c','h','a','r','s',' ',' ',' ',' ',' ',' ','0','1','-','0','8',',',' ','0','e','-','1','f',' ',' ',' '],
   .variable [] ['f','m','t','_','p','a','r','a','m'] [],
   .text ['-','c',' ','-','C'],
   .format [] [] [],
   .text ['\n']],
  [.text [' ',' '],
   .variable [] ['f','m','t','_','c','o','m','m','e','n','t'] [],
   .text ['<'],
   .format [] [] [],
   .variable [] ['f','m','t','_','c','c'] [],
   .text ['P'],
   .format [] [] [],
   .variable [] ['f','m','t','_','c','o','m','m','e','n','t'] [],
   .text ['>'],
   .format [] [] [],
   .text [' ',' ',' ','A','S','C','I','I',' ','p','r','i','n','t','a','b','l','e',' ','c','h','a','r','s',' ',' ',' ',' ','2','1','-','7','e',' ',' ',' ',' ',' ',' ',' ',' ',' ',' '],
   .variable [] ['f','m','t','_','p','a','r','a','m'] [],
   .text ['-','p',' ','-','P'],
   .format [] [] [],
   .text ['\n']],
  [.text [' ',' '],
   .variable [] ['f','m','t','_','c','o','m','m','e','n','t'] [],
   .text ['<'],
   .format [] [] [],
   .variable [] ['f','m','t','_','c','c'] [],
   .text ['I'],
   .format [] [] [],
   .variable [] ['f','m','t','_','c','o','m','m','e','n','t'] [],
   .text ['>'],
   .format [] [] [],
   .text [' ',' ',' ','b','i','n','a','r','y',' ','d','a','t','a',' ',' ',' ',' ',' ',' ',' ',' ',' ',' ',' ',' ',' ',' ','8','0','-','f','f',' ',' ',' ',' ',' ',' ',' ',' ',' ',' '],
   .variable [] ['f','m','t','_','p','a','r','a','m'] [],
   .text ['-','i',' ','-','I'],
   .format [] [] [],
   .text ['\n']],
  [.text [' ',' '],
   .variable [] ['f','m','t','_','c','o','m','m','e','n','t'] [],
   .text ['<'],
   .format [] [] [],
   .variable [] ['f','m','t','_','c','c'] [],
   .text ['U'],
   .format [] [] [],
   .variable [] ['f','m','t','_','c','o','m','m','e','n','t'] [],
   .text ['>'],
   .format [] [] [],
   .text [' ',' ',' ','U','T','F','-','8',' ','s','e','q','u','e','n','c','e','s',' ',' ',' ',' ',' ',' ',' ',' ',' ',' ','v','a','r','i','o','u','s',' ',' ',' ',' ',' ',' ',' ',' '],
   .variable [] ['f','m','t','_','p','a','r','a','m'] [],
   .text ['-','u',' ','-','U'],
   .format [] [] [],
   .text ['\n']],
  [.text [' ',' '],
   .variable [] ['f','m','t','_','c','o','m','m','e','n','t'] [],
   .text ['<'],
   .format [] [] [],
   .variable [] ['f','m','t','_','c','c'] [],
   .text ['E'],
   .format [] [] [],
   .variable [] ['f','m','t','_','c','o','m','m','e','n','t'] [],
   .text ['>'],
   .format [] [] [],
   .text [' ',' ',' ','A','N','S','I',' ','e','s','c','a','p','e',' ','s','e','q','u','e','n','c','e','s',' ',' ',' ',' ','1','b','[','.','.',']',' ',' ',' ',' ',' ',' ',' ',' ',' '],
   .variable [] ['f','m','t','_','p','a','r','a','m'] [],
   .text ['-','e',' ','-','E'],
   .format [] [] [],
   .text ['\n']],
  [.text ['\n']],
  [.variable [] ['f','m','t','_','h','e','a','d','e','r'] [],
   .text ['S','I','G','I','L','S'],
   .format [] [] [],
   .text ['\n']],
  [.text [' '],
   .variable [] ['f','m','t','_','t','h','e','a','d'] [],
   .text ['C','H','A','R','(','s',')'],
   .format [] [] [],
   .text [' '],
   .variable [] ['f','m','t','_','t','h','e','a','d'] [],
   .text ['O','U','T','P','U','T',' ','(','r','e','g','u','l','a','r','/','f','o','c','u','s','e','d',')'],
   .format [] [] [],
   .text [' ',' '],
   .variable [] ['f','m','t','_','t','h','e','a','d'] [],
   .text ['C','L','S'],
   .format [] [] [],
   .text [' '],
   .variable [] ['f','m','t','_','t','h','e','a','d'] [],
   .text [' ',' ',' ',' ',' ',' ',' ',' ',' ',' ',' ',' ',' ','D','E','S','C','R','I','P','T','I','O','N',' ','a','n','d',' ','N','O','T','E','S',' ',' ',' ',' ',' ',' ',' ',' ',' ',' ',' ',' ',' ',' ',' ',' ',' ',' ',' ',' ',' ',' ',' ',' ',' ',' ',' ',' '],
   .format [] [] [],
   .text ['\n']],
  [.text [' ',' ',' ',' ',' ',' ',' ',' ',' '],
   .variable [] ['f','m','t','_','t','h','e','a','d'] [],
   .text ['T','E','X','T',' ','m','o','d','e'],
   .format [] [] [],
   .text [' '],
   .variable [] ['f','m','t','_','t','h','e','a','d'] [],
   .text [' ','B','I','N','A','R','Y',' ','m','o','d','e',' '],
   .format [] [] [],
   .text ['\n']],
  [.text [' '],
   .variable [] ['s','e','p','a','r','a','t','o','r'] [],
   .text ['\n']],
  [.text [' '],
   .variable [] ['e','x','_','s','_','t','a','b'] [' ',' '],
   .variable [] ['f','m','t','_','c','o','m','m','e','n','t'] [],
   .text ['<'],
   .format [] [] [],
   .variable [] ['f','m','t','_','c','c'] [],
   .variable [] ['f','m','t','_','c','c'] [],
   .text ['S'],
   .format [] [] [],
   .variable [] ['f','m','t','_','c','o','m','m','e','n','t'] [],
   .text ['>'],
   .format [] [] [],
   .text [' ','h','o','r','i','z','o','n','t','a','l',' ','t','a','b',' ',' ',' ',' '],
   .variable [] ['f','m','t','_','c','o','m','m','e','n','t'] [],
   .text ['H','T',' ',' ','"'],
   .format [] [['b','o','l','d']] [],
   .text ['\\','t'],
   .format [] [] [],
   .variable [] ['f','m','t','_','c','o','m','m','e','n','t'] [],
   .text ['"',' ',' ',' ',' ',' ',' ',' ',' ','o','r','i','g','i','n',' ','i','s',' ','k','e','p','t',';'],
   .format [] [] [],
   .text ['\n']],
  [.text [' '],
   .variable [] ['e','x','_','s','_','l','f'] [' ',' ',' '],
   .variable [] ['f','m','t','_','c','o','m','m','e','n','t'] [],
   .text ['<'],
   .format [] [] [],
   .variable [] ['f','m','t','_','c','c'] [],
   .text ['S'],
   .format [] [] [],
   .variable [] ['f','m','t','_','c','o','m','m','e','n','t'] [],
   .text ['>'],
   .format [] [] [],
   .text [' ','l','i','n','e',' ','f','e','e','d',' ',' ',' ',' ',' ',' ',' ',' ',' '],
   .variable [] ['f','m','t','_','c','o','m','m','e','n','t'] [],
   .text ['L','F',' ',' ','"'],
   .format [] [['b','o','l','d']] [],
   .text ['\\','n'],
   .format [] [] [],
   .variable [] ['f','m','t','_','c','o','m','m','e','n','t'] [],
   .text ['"',' ',' ',' ',' ',' ',' ',' ',' ','o','r','i','g','i','n',' ','i','s',' ','k','e','p','t',';'],
   .format [] [] [],
   .text ['\n']],
  [.text [' '],
   .variable [] ['e','x','_','s','_','v','t','a','b'] [' '],
   .variable [] ['f','m','t','_','c','o','m','m','e','n','t'] [],
   .text ['<'],
   .format [] [] [],
   .variable [] ['f','m','t','_','c','c'] [],
   .text ['S'],
   .format [] [] [],
   .variable [] ['f','m','t','_','c','o','m','m','e','n','t'] [],
   .text ['>'],
   .format [] [] [],
   .text [' ','v','e','r','t','i','c','a','l',' ','t','a','b',' ',' ',' ',' ',' ',' '],
   .variable [] ['f','m','t','_','c','o','m','m','e','n','t'] [],
   .text ['V','T',' ',' ','"'],
   .format [] [['b','o','l','d']] [],
   .text ['\\','v'],
   .format [] [] [],
   .variable [] ['f','m','t','_','c','o','m','m','e','n','t'] [],
   .text ['"'],
   .format [] [] [],
   .text ['\n']],
  [.text [' '],
   .variable [] ['e','x','_','s','_','f','f'] [' ',' ',' '],
   .variable [] ['f','m','t','_','c','o','m','m','e','n','t'] [],
   .text ['<'],
   .format [] [] [],
   .variable [] ['f','m','t','_','c','c'] [],
   .text ['S'],
   .format [] [] [],
   .variable [] ['f','m','t','_','c','o','m','m','e','n','t'] [],
   .text ['>'],
   .format [] [] [],
   .text [' ','f','o','r','m',' ','f','e','e','d',' ',' ',' ',' ',' ',' ',' ',' ',' '],
   .variable [] ['f','m','t','_','c','o','m','m','e','n','t'] [],
   .text ['F','F',' ',' ','"'],
   .format [] [['b','o','l','d']] [],
   .text ['\\','f'],
   .format [] [] [],
   .variable [] ['f','m','t','_','c','o','m','m','e','n','t'] [],
   .text ['"'],
   .format [] [] [],
   .text ['\n']],
  [.text [' '],
   .variable [] ['e','x','_','s','_','c','r'] [' ',' ',' '],
   .variable [] ['f','m','t','_','c','o','m','m','e','n','t'] [],
   .text ['<'],
   .format [] [] [],
   .variable [] ['f','m','t','_','c','c'] [],
   .text ['S'],
   .format [] [] [],
   .variable [] ['f','m','t','_','c','o','m','m','e','n','t'] [],
   .text ['>'],
   .format [] [] [],
   .text [' ','c','a','r','r','i','a','g','e',' ','r','e','t','u','r','n',' ',' ',' '],
   .variable [] ['f','m','t','_','c','o','m','m','e','n','t'] [],
   .text ['C','R',' ',' ','"'],
   .format [] [['b','o','l','d']] [],
   .text ['\\','r'],
   .format [] [] [],
   .variable [] ['f','m','t','_','c','o','m','m','e','n','t'] [],
   .text ['"'],
   .format [] [] [],
   .text ['\n']],
  [.text [' '],
   .variable [] ['e','x','_','s','_','s','p','a','c','e'] [],
   .variable [] ['f','m','t','_','c','o','m','m','e','n','t'] [],
   .text ['<'],
   .format [] [] [],
   .variable [] ['f','m','t','_','c','c'] [],
   .text ['S'],
   .format [] [] [],
   .variable [] ['f','m','t','_','c','o','m','m','e','n','t'] [],
   .text ['>'],
   .format [] [] [],
   .text [' ','s','p','a','c','e',' ',' ',' ',' ',' ',' ',' ',' ',' ',' ',' ',' ',' '],
   .variable [] ['f','m','t','_','c','o','m','m','e','n','t'] [],
   .text ['S','P','\n']],
  [.text [' '],
   .variable [] ['s','e','p','a','r','a','t','o','r'] [],
   .text ['\n']],
  [.text [' '],
   .variable [] ['e','x','_','c','_','m','i','s','c','0'] [],
   .variable [] ['f','m','t','_','c','o','m','m','e','n','t'] [],
   .text ['<'],
   .format [] [] [],
   .variable [] ['f','m','t','_','c','c'] [],
   .text ['C'],
   .format [] [] [],
   .variable [] ['f','m','t','_','c','o','m','m','e','n','t'] [],
   .text ['>'],
   .format [] [] [],
   .text [' ','g','e','n','e','r','i','c',' ','c','o','n','t','r','o','l',' ','c','h','a','r',' ',' ',' ',' '],
   .variable [] ['f','m','t','_','c','o','m','m','e','n','t'] [],
   .text ['C','C','s',' ','w','i','t','h','o','u','t',' ','u','n','i','q','u','e',' ','s','i','g','i','l',';'],
   .format [] [] [],
   .text ['\n']],
  [.text [' '],
   .variable [] ['e','x','_','c','_','m','i','s','c','1'] [],
   .text [' ',' ',' ',' '],
   .variable [] ['f','m','t','_','p','a','r','a','m'] [],
   .text ['-','-','t','e','x','t',' ','-','-','m','a','r','k','e','r','='],
   .variable [] ['f','m','t','_','m','1'] [],
   .text ['1'],
   .format [] [] [],
   .text [' ',' ',' '],
   .variable [] ['f','m','t','_','c','o','m','m','e','n','t'] [],
   .text ['c','h','a','r',' ','f','r','o','m',' ','c','a','r','e','t',' ','n','o','t','a','t','i','o','n',':',' ','^','C',';','\n']],
  [.text [' '],
   .variable [] ['e','x','_','c','_','m','i','s','c','2'] [],
   .text [' ',' ',' ',' '],
   .variable [] ['f','m','t','_','p','a','r','a','m'] [],
   .text ['-','-','t','e','x','t',' ','-','-','m','a','r','k','e','r','='],
   .variable [] ['f','m','t','_','m','2'] [],
   .text ['2'],
   .format [] [] [],
   .text [' ',' ',' ',' '],
   .variable [] ['f','m','t','_','c','o','m','m','e','n','t'] [],
   .text ['r','e','a','l',' ','c','h','a','r',' ','h','e','x','a','d','e','c','i','m','a','l',' ','v','a','l','u','e',';','\n']],
  [.text ['\n']],
  [.text [' '],
   .variable [] ['e','x','_','c','_','n','u','l','l'] [' '],
   .variable [] ['f','m','t','_','c','o','m','m','e','n','t'] [],
   .text ['<'],
   .format [] [] [],
   .variable [] ['f','m','t','_','c','c'] [],
   .text ['C'],
   .format [] [] [],
   .variable [] ['f','m','t','_','c','o','m','m','e','n','t'] [],
   .text ['>'],
   .format [] [] [],
   .text [' ','n','u','l','l',' ','b','y','t','e',' ',' ',' ',' ',' ',' ',' ',' '],
   .variable [] ['f','m','t','_','c','o','m','m','e','n','t'] [],
   .text ['N','U','L',' ',' ','"'],
   .format [] [['b','o','l','d']] [],
   .text ['\\','0'],
   .format [] [] [],
   .variable [] ['f','m','t','_','c','o','m','m','e','n','t'] [],
   .text ['"'],
   .format [] [] [],
   .text ['\n']],
  [.text [' '],
   .variable [] ['e','x','_','c','_','b','s','k','p','c'] [],
   .variable [] ['f','m','t','_','c','o','m','m','e','n','t'] [],
   .text ['<'],
   .format [] [] [],
   .variable [] ['f','m','t','_','c','c'] [],
   .text ['C'],
   .format [] [] [],
   .variable [] ['f','m','t','_','c','o','m','m','e','n','t'] [],
   .text ['>'],
   .format [] [] [],
   .text [' ','b','a','c','k','s','p','a','c','e',' ',' ',' ',' ',' ',' ',' ',' '],
   .variable [] ['f','m','t','_','c','o','m','m','e','n','t'] [],
   .text [' ','B','S',' ',' ','"'],
   .format [] [['b','o','l','d']] [],
   .text ['\\','b'],
   .format [] [] [],
   .variable [] ['f','m','t','_','c','o','m','m','e','n','t'] [],
   .text ['"'],
   .format [] [] [],
   .text ['\n']],
  [.text [' '],
   .variable [] ['e','x','_','c','_','d','e','l'] [' ',' '],
   .variable [] ['f','m','t','_','c','o','m','m','e','n','t'] [],
   .text ['<'],
   .format [] [] [],
   .variable [] ['f','m','t','_','c','c'] [],
   .text ['C'],
   .format [] [] [],
   .variable [] ['f','m','t','_','c','o','m','m','e','n','t'] [],
   .text ['>'],
   .format [] [] [],
   .text [' ','d','e','l','e','t','e',' ',' ',' ',' ',' ',' ',' ',' ',' ',' ',' '],
   .variable [] ['f','m','t','_','c','o','m','m','e','n','t'] [],
   .text ['D','E','L','\n']],
  [.text [' '],
   .variable [] ['e','x','_','c','_','e','s','c'] [' ',' '],
   .variable [] ['f','m','t','_','c','o','m','m','e','n','t'] [],
   .text ['<'],
   .format [] [] [],
   .variable [] ['f','m','t','_','c','c'] [],
   .text ['C'],
   .format [] [] [],
   .variable [] ['f','m','t','_','c','o','m','m','e','n','t'] [],
   .text ['>'],
   .format [] [] [],
   .text [' ','e','s','c','a','p','e',' ',' ',' ',' ',' ',' ',' ',' ',' ',' ',' '],
   .variable [] ['f','m','t','_','c','o','m','m','e','n','t'] [],
   .text ['E','S','C',' ',' ','"'],
   .format [] [['b','o','l','d']] [],
   .text ['\\','e'],
   .format [] [] [],
   .variable [] ['f','m','t','_','c','o','m','m','e','n','t'] [],
   .text ['"',' ','(','s','h','e','l','l',')'],
   .format [] [] [],
   .text ['\n']],
  [.text [' '],
   .variable [] ['s','e','p','a','r','a','t','o','r'] [],
   .text ['\n']],
  [.text [' '],
   .variable [] ['e','x','_','p','_','p','r','i','n','t'] [],
   .variable [] ['f','m','t','_','c','o','m','m','e','n','t'] [],
   .text ['<'],
   .format [] [] [],
   .variable [] ['f','m','t','_','c','c'] [],
   .text ['P'],
   .format [] [] [],
   .variable [] ['f','m','t','_','c','o','m','m','e','n','t'] [],
   .text ['>'],
   .format [] [] [],
   .text [' ','A','S','C','I','I',' ','p','r','i','n','t','a','b','l','e',' ','c','h','a','r','\n']],
  [.text [' '],
   .variable [] ['e','x','_','p','_','p','r','i','n','t','2'] [],
   .text ['\n']],
  [.text [' '],
   .variable [] ['s','e','p','a','r','a','t','o','r'] [],
   .text ['\n']],
  [.text [' '],
   .variable [] ['e','x','_','i','_','2'] [' ',' ',' ',' '],
   .variable [] ['f','m','t','_','c','o','m','m','e','n','t'] [],
   .text ['<'],
   .format [] [] [],
   .variable [] ['f','m','t','_','c','c'] [],
   .text ['I'],
   .format [] [] [],
   .variable [] ['f','m','t','_','c','o','m','m','e','n','t'] [],
   .text ['>'],
   .format [] [] [],
   .text [' ','b','i','n','a','r','y',' ','d','a','t','a',' ',' '],
   .variable [] ['f','m','t','_','p','a','r','a','m'] [],
   .text ['-','t'],
   .format [] [] [],
   .text [' ',' ',' ',' ',' '],
   .variable [] ['f','m','t','_','c','o','m','m','e','n','t'] [],
   .text ['s','e','q','u','e','n','c','e','s',' ','t','h','a','t',' ','c','a','n','n','o','t',' ','b','e',' ','c','l','a','-'],
   .format [] [] [],
   .text ['\n']],
  [.text [' '],
   .variable [] ['e','x','_','i','_','1'] [' ',' ',' ',' '],
   .text [' ',' ',' ',' ',' ',' ',' ',' ',' ',' ',' ',' ',' ',' ',' ',' ',' '],
   .variable [] ['f','m','t','_','p','a','r','a','m'] [],
   .text ['-','b'],
   .format [] [] [],
   .text [' ',' ',' ',' ',' '],
   .variable [] ['f','m','t','_','c','o','m','m','e','n','t'] [],
   .text ['s','s','i','f','i','e','d',' ','a','s',' ','a','n','y',' ','o','f',' ','t','h','e',' ','o','t','h','e','r','s',';'],
   .format [] [] [],
   .text ['\n']],
  [.text [' '],
   .variable [] ['s','e','p','a','r','a','t','o','r'] [],
   .text ['\n']],
  [.text [' '],
   .variable [] ['e','x','_','u','_','3'] [' ',' ',' ',' '],
   .variable [] ['f','m','t','_','c','o','m','m','e','n','t'] [],
   .text ['<'],
   .format [] [] [],
   .variable [] ['f','m','t','_','c','c'] [],
   .text ['U'],
   .format [] [] [],
   .variable [] ['f','m','t','_','c','o','m','m','e','n','t'] [],
   .text ['>'],
   .format [] [] [],
   .text [' ','U','T','F','-','8',' ','s','e','q','u','e','n','c','e',' ',' '],
   .variable [] ['f','m','t','_','p','a','r','a','m'] [],
   .text ['-','-','t','e','x','t'],
   .format [] [] [],
   .variable [] ['f','m','t','_','c','o','m','m','e','n','t'] [],
   .text [' ',' ',' ',' ',' ',' ',' ',' ','d','e','c','o','d','e','d',' ','b','y',' ','d','e','f','a','u','l','t',';'],
   .format [] [] [],
   .text ['\n']],
  [.text [' '],
   .variable [] ['e','x','_','u','_','1'] [' ',' ',' ',' '],
   .text [' ',' ',' ',' ',' ',' ',' ',' ',' ',' ',' ',' ',' ',' ',' ',' ',' ',' ',' ',' '],
   .variable [] ['f','m','t','_','p','a','r','a','m'] [],
   .text ['-','-','b','i','n','a','r','y'],
   .format [] [] [],
   .text ['\n']],
  [.text [' '],
   .variable [] ['e','x','_','u','_','2'] [' ',' ',' ',' '],
   .text [' ',' ',' ',' ',' ',' ',' ',' ',' ',' ',' ',' ',' ',' ',' ',' ',' ',' ',' ',' '],
   .variable [] ['f','m','t','_','p','a','r','a','m'] [],
   .text ['-','-','b','i','n','a','r','y'],
   .format [] [] [],
   .text [' '],
   .variable [] ['f','m','t','_','p','a','r','a','m'] [],
   .text ['-','-','d','e','c','o','d','e'],
   .format [] [] [],
   .text ['\n']],
  [.text [' '],
   .variable [] ['s','e','p','a','r','a','t','o','r'] [],
   .text ['\n']],
  [.text [' '],
   .variable [] ['e','x','_','e','_','r','e','s','e','t','_','m','0'] [],
   .variable [] ['f','m','t','_','c','o','m','m','e','n','t'] [],
   .text ['<'],
   .format [] [] [],
   .variable [] ['f','m','t','_','c','c'] [],
   .text ['E'],
   .format [] [] [],
   .variable [] ['f','m','t','_','c','o','m','m','e','n','t'] [],
   .text ['>'],
   .format [] [] [],
   .text [' ','S','G','R',' ','r','e','s','e','t',' ','s','e','q','u','e','n','c','e',' ',' '],
   .variable [] ['f','m','t','_','c','o','m','m','e','n','t'] [],
   .text ['a','l','l',' ','p','a','r','a','m','s',' ','a','l','w','a','y','s',' ','u','n','d','e','r','l','i','n','e','d',';'],
   .format [] [] [],
   .text ['\n']],
  [.text [' '],
   .variable [] ['e','x','_','e','_','r','e','s','e','t','_','m','1'] [],
   .text [' ',' ',' ',' '],
   .variable [] ['f','m','t','_','p','a','r','a','m'] [],
   .text ['-','m','1'],
   .variable [] ['f','m','t','_','m','1'] [],
   .text ['·'],
   .format [] [] [],
   .text [' ',' '],
   .variable [] ['f','m','t','_','c','o','m','m','e','n','t'] [],
   .text ['s','e','p','a','r','a','t','o','r','s',' ','b','e','c','o','m','e',' ','v','i','s','i','b','l','e',' ','w','h','e','n',' '],
   .format [] [['b','o','l','d']] [],
   .text ['m'],
   .format [] [] [],
   .variable [] ['f','m','t','_','c','o','m','m','e','n','t'] [],
   .text [' ','i','s',' ','1',' ','o','r',' ','2',';'],
   .format [] [] [],
   .text ['\n']],
  [.text [' '],
   .variable [] ['e','x','_','e','_','r','e','s','e','t','_','m','2'] [],
   .text [' ',' ',' ',' '],
   .variable [] ['f','m','t','_','p','a','r','a','m'] [],
   .text ['-','m','2'],
   .variable [] ['f','m','t','_','m','2'] [],
   .text ['·'],
   .format [] [] [],
   .text [' ',' '],
   .variable [] ['f','m','t','_','c','o','m','m','e','n','t'] [],
   .text ['r','e','a','l',' ','S','G','R',' ','c','o','n','t','e','n','t','s',' ','e','x','c','e','p','t',' ','E','S','C',' ','-','>',' ','"'],
   .format [] [['b','o','l','d']] [],
   .text ['ǝ'],
   .format [] [] [],
   .variable [] ['f','m','t','_','c','o','m','m','e','n','t'] [],
   .text ['"',' ','o','r',' ','"'],
   .format [] [['b','o','l','d']] [],
   .text ['θ'],
   .format [] [] [],
   .variable [] ['f','m','t','_','c','o','m','m','e','n','t'] [],
   .text ['"',';','\n']],
  [.text ['\n']],
  [.text [' '],
   .variable [] ['e','x','_','e','_','s','g','r','_','m','0'] [' ',' '],
   .variable [] ['f','m','t','_','c','o','m','m','e','n','t'] [],
   .text ['<'],
   .format [] [] [],
   .variable [] ['f','m','t','_','c','c'] [],
   .text ['E'],
   .format [] [] [],
   .variable [] ['f','m','t','_','c','o','m','m','e','n','t'] [],
   .text ['>'],
   .format [] [] [],
   .text [' ','S','G','R',' ','s','e','q','u','e','n','c','e',' ',' ',' ',' '],
   .variable [] ['f','m','t','_','c','o','m','m','e','n','t'] [],
   .text ['l','a','b','e','l',' ','c','o','l','o','r',' ','q',' ','t','o',' ','<'],
   .format [] [] [],
   .variable [] ['f','m','t','_','c','c'] [],
   .text ['C'],
   .format [] [] [],
   .variable [] ['f','m','t','_','c','o','m','m','e','n','t'] [],
   .text ['>',' ','c','l','a','s','s',';'],
   .format [] [] [],
   .text ['\n']],
  [.text [' '],
   .variable [] ['e','x','_','e','_','s','g','r','_','m','0','c'] [' '],
   .text [' ',' ',' ',' ',' ',' ',' ',' ',' ',' '],
   .variable [] ['f','m','t','_','p','a','r','a','m'] [],
   .text ['-','-','c','o','l','o','r','-','m','a','r','k','e','r','s'],
   .format [] [] [],
   .text [' ',' '],
   .variable [] ['f','m','t','_','c','o','m','m','e','n','t'] [],
   .text ['m','a','r','k','e','r',' ','c','o','l','o','r','s',' ','m','a','t','c','h',' ','S','G','R','\'','s',';'],
   .format [] [] [],
   .text ['\n']],
  [.text [' '],
   .variable [] ['e','x','_','e','_','s','g','r','_','m','1'] [' ',' '],
   .text [' ',' ',' ',' '],
   .variable [] ['f','m','t','_','p','a','r','a','m'] [],
   .text ['-','m','1'],
   .variable [] ['f','m','t','_','m','1'] [],
   .text ['·'],
   .format [] [] [],
   .text [' ',' '],
   .variable [] ['f','m','t','_','p','a','r','a','m'] [],
   .text ['-','-','c','o','l','o','r','-','m','a','r','k','e','r','s'],
   .format [] [] [],
   .text [' ',' '],
   .variable [] ['f','m','t','_','c','o','m','m','e','n','t'] [],
   .text ['i','n','d','e','x','-','1','6',' ','f','g',' ','a','n','d',' ','b','o','l','d',' ','c','o','d','e',';'],
   .format [] [] [],
   .text ['\n']],
  [.text [' '],
   .variable [] ['e','x','_','e','_','s','g','r','_','m','1','_','2'] [],
   .text [' ',' ',' ',' '],
   .variable [] ['f','m','t','_','p','a','r','a','m'] [],
   .text ['-','m','1'],
   .variable [] ['f','m','t','_','m','1'] [],
   .text ['·'],
   .format [] [] [],
   .text [' ',' '],
   .variable [] ['f','m','t','_','p','a','r','a','m'] [],
   .text ['-','-','c','o','l','o','r','-','m','a','r','k','e','r','s'],
   .format [] [] [],
   .text [' ',' '],
   .variable [] ['f','m','t','_','c','o','m','m','e','n','t'] [],
   .text ['i','n','d','e','x','-','2','5','6',' ','f','g',' ','a','n','d',' ','b','g',' ','c','o','d','e','s',';'],
   .format [] [] [],
   .text ['\n']],
  [.text [' '],
   .variable [] ['e','x','_','e','_','s','g','r','_','m','1','_','3'] [],
   .text [' ',' ',' ',' '],
   .variable [] ['f','m','t','_','p','a','r','a','m'] [],
   .text ['-','m','1'],
   .variable [] ['f','m','t','_','m','1'] [],
   .text ['·'],
   .format [] [] [],
   .text [' ',' '],
   .variable [] ['f','m','t','_','p','a','r','a','m'] [],
   .text ['-','-','c','o','l','o','r','-','m','a','r','k','e','r','s'],
   .format [] [] [],
   .text [' ',' '],
   .variable [] ['f','m','t','_','c','o','m','m','e','n','t'] [],
   .text ['t','r','u','e',' ','c','o','l','o','r',' ','R','G','B',' ','h','e','x','.',' ','v','a','l','u','e',';'],
   .format [] [] [],
   .text ['\n']],
  [.text [' '],
   .variable [] ['e','x','_','e','_','s','g','r','_','m','2'] [],
   .text [' ',' ',' ',' ',' ',' '],
   .variable [] ['f','m','t','_','p','a','r','a','m'] [],
   .text ['-','m','2'],
   .variable [] ['f','m','t','_','m','2'] [],
   .text ['·'],
   .format [] [] [],
   .text [' ',' '],
   .variable [] ['f','m','t','_','c','o','m','m','e','n','t'] [],
   .text ['r','e','a','l',' ','S','G','R',' ','c','o','n','t','e','n','t','s',';',' ','s','a','m','e',' ','d','a','t','a',' ','a','s',' ','i','n',' ','p','r','e','v','.','e','x','.'],
   .format [] [] [],
   .text ['\n']],
  [.text ['\n']],
  [.text [' '],
   .variable [] ['e','x','_','e','_','c','s','i'] [' ',' '],
   .variable [] ['f','m','t','_','c','o','m','m','e','n','t'] [],
   .text ['<'],
   .format [] [] [],
   .variable [] ['f','m','t','_','c','c'] [],
   .text ['E'],
   .format [] [] [],
   .variable [] ['f','m','t','_','c','o','m','m','e','n','t'] [],
   .text ['>'],
   .format [] [] [],
   .text [' ','C','S','I',' ','s','e','q','u','e','n','c','e',' ',' '],
   .variable [] ['f','m','t','_','p','a','r','a','m'] [],
   .text ['-','m','2'],
   .variable [] ['f','m','t','_','m','2'] [],
   .text ['·'],
   .format [] [] [],
   .text [' ',' ',' ',' ',' '],
   .variable [] ['f','m','t','_','c','o','m','m','e','n','t'] [],
   .text ['c','o','l','o','r',' ','d','e','p','e','n','d','s',' ','o','n',' ','s','e','q',' ','t','y','p','e',','],
   .format [] [] [],
   .text ['\n']],
  [.text [' '],
   .variable [] ['e','x','_','e','_','n','f'] [' ',' ',' '],
   .variable [] ['f','m','t','_','c','o','m','m','e','n','t'] [],
   .text ['<'],
   .format [] [] [],
   .variable [] ['f','m','t','_','c','c'] [],
   .text ['E'],
   .format [] [] [],
   .variable [] ['f','m','t','_','c','o','m','m','e','n','t'] [],
   .text ['>'],
   .format [] [] [],
   .text [' ',' ','n','F',' ','s','e','q','u','e','n','c','e',' ',' '],
   .variable [] ['f','m','t','_','p','a','r','a','m'] [],
   .text ['-','m','2'],
   .variable [] ['f','m','t','_','m','2'] [],
   .text ['·'],
   .format [] [] [],
   .text [' ',' '],
   .variable [] ['f','m','t','_','p','a','r','a','m'] [],
   .text ['-','e'],
   .format [] [] [],
   .text [' ',' ',' ',' ',' '],
   .variable [] ['f','m','t','_','c','o','m','m','e','n','t'] [],
   .text ['n','o','t',' ','o','n',' ','s','e','q',' ','p','a','r','a','m','s',' ','(','i','n'],
   .format [] [] [],
   .text ['\n']],
  [.text [' '],
   .variable [] ['e','x','_','e','_','f','p'] [' ',' ',' '],
   .variable [] ['f','m','t','_','c','o','m','m','e','n','t'] [],
   .text ['<'],
   .format [] [] [],
   .variable [] ['f','m','t','_','c','c'] [],
   .text ['E'],
   .format [] [] [],
   .variable [] ['f','m','t','_','c','o','m','m','e','n','t'] [],
   .text ['>'],
   .format [] [] [],
   .text [' ',' ','F','p',' ','s','e','q','u','e','n','c','e',' ',' '],
   .variable [] ['f','m','t','_','p','a','r','a','m'] [],
   .text ['-','m','2'],
   .variable [] ['f','m','t','_','m','2'] [],
   .text ['·'],
   .format [] [] [],
   .text [' ',' '],
   .variable [] ['f','m','t','_','p','a','r','a','m'] [],
   .text ['-','e'],
   .format [] [] [],
   .text [' ',' ',' ',' ',' ',' ',' '],
   .variable [] ['f','m','t','_','c','o','m','m','e','n','t'] [],
   .text ['c','o','n','t','r','a','s','t',' ','w','i','t','h',' ','S','G','R','s',')','.'],
   .format [] [] [],
   .text ['\n']],
  [.text [' '],
   .variable [] ['e','x','_','e','_','f','e'] [' ',' ',' '],
   .variable [] ['f','m','t','_','c','o','m','m','e','n','t'] [],
   .text ['<'],
   .format [] [] [],
   .variable [] ['f','m','t','_','c','c'] [],
   .text ['E'],
   .format [] [] [],
   .variable [] ['f','m','t','_','c','o','m','m','e','n','t'] [],
   .text ['>'],
   .format [] [] [],
   .text [' ',' ','F','e',' ','s','e','q','u','e','n','c','e',' ',' '],
   .variable [] ['f','m','t','_','p','a','r','a','m'] [],
   .text ['-','m','1'],
   .variable [] ['f','m','t','_','m','1'] [],
   .text ['·'],
   .format [] [] [],
   .text ['\n']],
  [.text [' '],
   .variable [] ['e','x','_','e','_','f','s'] [' ',' ',' '],
   .variable [] ['f','m','t','_','c','o','m','m','e','n','t'] [],
   .text ['<'],
   .format [] [] [],
   .variable [] ['f','m','t','_','c','c'] [],
   .text ['E'],
   .format [] [] [],
   .variable [] ['f','m','t','_','c','o','m','m','e','n','t'] [],
   .text ['>'],
   .format [] [] [],
   .text [' ',' ','F','s',' ','s','e','q','u','e','n','c','e','\n']],
  [.text [' '],
   .variable [] ['s','e','p','a','r','a','t','o','r'] [],
   .text ['\n']],
  [.text ['\n']],
  [.variable [] ['f','m','t','_','c','o','m','m','e','n','t'] [],
   .text ['F','o','r',' ','t','h','e',' ','b','e','s','t',' ','v','i','e','w',' ','y','o','u','r',' ','t','e','r','m','i','n','a','l',' ','s','h','o','u','l','d',' ','b','e',' '],
   .format [] [['b','o','l','d']] [],
   .text ['8','8'],
   .format [] [['b','o','l','d','_','d','i','m','_','o','f','f']] [],
   .text [' ','c','h','a','r','s',' ','w','i','d','e',' ','(','o','r',' ','w','i','d','e','r',')'],
   .format [] [] [],
   .text ['\n']],
  [.text ['\n']],
  [.variable [] ['f','m','t','_','c','o','m','m','e','n','t'] [],
   .text ['I','s',' ','a',' ','p','a','r','t',' ','o','f',' '],
   .format [] [['b','o','l','d'], ['w','h','i','t','e']] [],
   .text ['e','s','7','s'],
   .variable [] ['f','m','t','_','c','o','m','m','e','n','t'] [],
   .text [' ','p','a','c','k'],
   .format [] [] [],
   .text ['\n']],
  [.variable [] ['f','m','t','_','c','o','m','m','e','n','t'] [],
   .text ['(','c',')',' ','2','0','2','2','—','2','0','2','3',' ','A','.',' ','S','h','a','v','y','k','i','n'],
   .format [] [] [],
   .text ['\n']],
  [.variable [] ['f','m','t','_','c','o','m','m','e','n','t'] [],
   .text ['<'],
   .format [] [['h','i','_','b','l','u','e']] [],
   .text ['0'],
   .variable [] ['f','m','t','_','c','o','m','m','e','n','t'] [],
   .text ['.','d','e','l','a','m','e','t','e','r','@','g','m','a','i','l','.','c','o','m','>'],
   .format [] [] [],
   .text ['\n']]]

set_option maxRecDepth 20000 in
/-- The variables of the generator except for the version. -/
def legendVars : List (Str × Str) := [
  (['e','x','_','s','_','t','a','b'], ([' ',' ','\x1b','[','1',';','3','8',';','2',';','2','5','5',';','2','5','5',';','2','5','5',';','4','8',';','2',';','0',';','0',';','0','m',' ','⇥',' ','\x1b','[','2','2',';','3','9',';','4','9','m'] ++
    [' ',' ',' ',' ',' ',' ','\x1b','[','9','6','m','⇥','\x1b','[','3','9','m',' ','\x1b','[','4','6',';','3','0','m','⇥','\x1b','[','4','9',';','3','9','m',' ',' ',' ',' ',' ',' ',' ','\x1b','[','9','6','m',' '] ++
    ['0','9','\x1b','[','3','9','m',' ',' ',' ','\x1b','[','4','6',';','3','0','m',' ','0','9','\x1b','[','4','9',';','3','9','m',' ',' ',' ',' '])),
  (['e','x','_','s','_','l','f'], ([' ',' ','\x1b','[','1',';','3','8',';','2',';','2','5','5',';','2','5','5',';','2','5','5',';','4','8',';','2',';','0',';','0',';','0','m',' ','↵',' ','\x1b','[','2','2',';','3','9',';','4','9','m'] ++
    [' ',' ',' ',' ',' ',' ','\x1b','[','9','6','m','↵','\x1b','[','3','9','m',' ','\x1b','[','4','6',';','3','0','m','↵','\x1b','[','4','9',';','3','9','m',' ',' ',' ',' ',' ',' ',' ','\x1b','[','9','6','m',' '] ++
    ['0','a','\x1b','[','3','9','m',' ',' ',' ','\x1b','[','4','6',';','3','0','m',' ','0','a','\x1b','[','4','9',';','3','9','m',' ',' ',' ',' '])),
  (['e','x','_','s','_','v','t','a','b'], ([' ',' ','\x1b','[','1',';','3','8',';','2',';','2','5','5',';','2','5','5',';','2','5','5',';','4','8',';','2',';','0',';','0',';','0','m',' ','⤓',' ','\x1b','[','2','2',';','3','9',';','4','9','m'] ++
    [' ',' ',' ',' ',' ',' ','\x1b','[','9','6','m','⤓','\x1b','[','3','9','m',' ','\x1b','[','4','6',';','3','0','m','⤓','\x1b','[','4','9',';','3','9','m',' ',' ',' ',' ',' ',' ',' ','\x1b','[','9','6','m',' '] ++
    ['0','b','\x1b','[','3','9','m',' ',' ',' ','\x1b','[','4','6',';','3','0','m',' ','0','b','\x1b','[','4','9',';','3','9','m',' ',' ',' ',' '])),
  (['e','x','_','s','_','f','f'], ([' ',' ','\x1b','[','1',';','3','8',';','2',';','2','5','5',';','2','5','5',';','2','5','5',';','4','8',';','2',';','0',';','0',';','0','m',' ','↡',' ','\x1b','[','2','2',';','3','9',';','4','9','m'] ++
    [' ',' ',' ',' ',' ',' ','\x1b','[','9','6','m','↡','\x1b','[','3','9','m',' ','\x1b','[','4','6',';','3','0','m','↡','\x1b','[','4','9',';','3','9','m',' ',' ',' ',' ',' ',' ',' ','\x1b','[','9','6','m',' '] ++
    ['0','c','\x1b','[','3','9','m',' ',' ',' ','\x1b','[','4','6',';','3','0','m',' ','0','c','\x1b','[','4','9',';','3','9','m',' ',' ',' ',' '])),
  (['e','x','_','s','_','c','r'], ([' ',' ','\x1b','[','1',';','3','8',';','2',';','2','5','5',';','2','5','5',';','2','5','5',';','4','8',';','2',';','0',';','0',';','0','m',' ','⇤',' ','\x1b','[','2','2',';','3','9',';','4','9','m'] ++
    [' ',' ',' ',' ',' ',' ','\x1b','[','9','6','m','⇤','\x1b','[','3','9','m',' ','\x1b','[','4','6',';','3','0','m','⇤','\x1b','[','4','9',';','3','9','m',' ',' ',' ',' ',' ',' ',' ','\x1b','[','9','6','m',' '] ++
    ['0','d','\x1b','[','3','9','m',' ',' ',' ','\x1b','[','4','6',';','3','0','m',' ','0','d','\x1b','[','4','9',';','3','9','m',' ',' ',' ',' '])),
  (['e','x','_','s','_','s','p','a','c','e'], (['\x1b','[','1',';','3','8',';','2',';','2','5','5',';','2','5','5',';','2','5','5',';','4','8',';','2',';','0',';','0',';','0','m',' ','␣',' ','\x1b','[','2','2',';','3','9',';','4','9','m',' ','\x1b'] ++
    ['[','1',';','3','8',';','2',';','2','5','5',';','2','5','5',';','2','5','5',';','4','8',';','2',';','0',';','0',';','0','m',' ','·',' ','\x1b','[','2','2',';','3','9',';','4','9','m',' ',' ',' '] ++
    [' ','\x1b','[','9','6','m','␣','\x1b','[','3','9','m',' ','\x1b','[','4','6',';','3','0','m','·','\x1b','[','4','9',';','3','9','m',' ',' ',' ',' ',' ',' ',' ','\x1b','[','9','6','m',' ','2','0','\x1b','[','3'] ++
    ['9','m',' ',' ',' ','\x1b','[','4','6',';','3','0','m',' ','2','0','\x1b','[','4','9',';','3','9','m',' ',' ',' ',' '])),
  (['e','x','_','c','_','m','i','s','c','0'], ([' ',' ','\x1b','[','1',';','3','8',';','2',';','2','5','5',';','2','5','5',';','2','5','5',';','4','8',';','2',';','0',';','0',';','0','m',' ','Ɐ',' ','\x1b','[','2','2',';','3','9',';','4','9','m'] ++
    [' ',' ',' ',' ',' ',' ','\x1b','[','3','1','m','Ɐ','\x1b','[','3','9','m',' ','\x1b','[','3','1',';','7','m','Ɐ','\x1b','[','3','9',';','2','7','m',' ',' ',' ',' ',' ',' ',' ','\x1b','[','3','1','m',' ','0'] ++
    ['3','\x1b','[','3','9','m',' ',' ',' ','\x1b','[','3','1',';','7','m',' ','1','e','\x1b','[','3','9',';','2','7','m',' ',' ',' ',' '])),
  (['e','x','_','c','_','m','i','s','c','1'], ([' ',' ',' ',' ',' ',' ',' ',' ',' ',' ','\x1b','[','3','1','m','Ɐ','\x1b','[','3','9','m','\x1b','[','3','1',';','4','8',';','5',';','1','6',';','4','m','C','\x1b','[','3','9',';','4','9',';','2','4','m'] ++
    [' ','\x1b','[','3','1',';','7','m','Ɐ','\x1b','[','3','9',';','2','7','m','\x1b','[','3','1',';','4','8',';','5',';','1','6',';','4','m','^','\x1b','[','3','9',';','4','9',';','2','4','m',' ',' ',' ',' '] ++
    [' ',' ',' ',' ',' ',' ',' ',' ',' ',' ',' ',' ',' ',' ',' '])),
  (['e','x','_','c','_','m','i','s','c','2'], ([' ',' ',' ',' ',' ',' ',' ',' ',' ','\x1b','[','3','1','m','Ɐ','\x1b','[','3','9','m','\x1b','[','3','1',';','4','8',';','5',';','1','6',';','4','m','0','3','\x1b','[','3','9',';','4','9',';','2','4','m'] ++
    [' ','\x1b','[','3','1',';','7','m','Ɐ','\x1b','[','3','9',';','2','7','m','\x1b','[','3','1',';','4','8',';','5',';','1','6',';','4','m','1','e','\x1b','[','3','9',';','4','9',';','2','4','m',' ',' ',' '] ++
    [' ',' ',' ',' ',' ',' ',' ',' ',' ',' ',' ',' ',' ',' ',' '])),
  (['e','x','_','c','_','n','u','l','l'], ([' ',' ','\x1b','[','1',';','3','8',';','2',';','2','5','5',';','2','5','5',';','2','5','5',';','4','8',';','2',';','0',';','0',';','0','m',' ','Ø',' ','\x1b','[','2','2',';','3','9',';','4','9','m'] ++
    [' ',' ',' ',' ',' ',' ','\x1b','[','9','1','m','Ø','\x1b','[','3','9','m',' ','\x1b','[','9','1',';','7','m','Ø','\x1b','[','3','9',';','2','7','m',' ',' ',' ',' ',' ',' ',' ','\x1b','[','9','1','m',' ','0'] ++
    ['0','\x1b','[','3','9','m',' ',' ',' ','\x1b','[','9','1',';','7','m',' ','0','0','\x1b','[','3','9',';','2','7','m',' ',' ',' ',' '])),
  (['e','x','_','c','_','b','s','k','p','c'], ([' ',' ','\x1b','[','1',';','3','8',';','2',';','2','5','5',';','2','5','5',';','2','5','5',';','4','8',';','2',';','0',';','0',';','0','m',' ','←',' ','\x1b','[','2','2',';','3','9',';','4','9','m'] ++
    [' ',' ',' ',' ',' ',' ','\x1b','[','3','1','m','←','\x1b','[','3','9','m',' ','\x1b','[','3','1',';','7','m','←','\x1b','[','3','9',';','2','7','m',' ',' ',' ',' ',' ',' ',' ','\x1b','[','3','1','m',' ','0'] ++
    ['8','\x1b','[','3','9','m',' ',' ',' ','\x1b','[','3','1',';','7','m',' ','0','8','\x1b','[','3','9',';','2','7','m',' ',' ',' ',' '])),
  (['e','x','_','c','_','d','e','l'], ([' ',' ','\x1b','[','1',';','3','8',';','2',';','2','5','5',';','2','5','5',';','2','5','5',';','4','8',';','2',';','0',';','0',';','0','m',' ','→',' ','\x1b','[','2','2',';','3','9',';','4','9','m'] ++
    [' ',' ',' ',' ',' ',' ','\x1b','[','3','1','m','→','\x1b','[','3','9','m',' ','\x1b','[','3','1',';','7','m','→','\x1b','[','3','9',';','2','7','m',' ',' ',' ',' ',' ',' ',' ','\x1b','[','3','1','m',' ','7'] ++
    ['f','\x1b','[','3','9','m',' ',' ',' ','\x1b','[','3','1',';','7','m',' ','7','f','\x1b','[','3','9',';','2','7','m',' ',' ',' ',' '])),
  (['e','x','_','c','_','e','s','c'], ([' ',' ','\x1b','[','1',';','3','8',';','2',';','2','5','5',';','2','5','5',';','2','5','5',';','4','8',';','2',';','0',';','0',';','0','m',' ','∌',' ','\x1b','[','2','2',';','3','9',';','4','9','m'] ++
    [' ',' ',' ',' ',' ',' ','\x1b','[','9','3','m','∌','\x1b','[','3','9','m',' ','\x1b','[','9','3',';','7','m','∌','\x1b','[','3','9',';','2','7','m',' ',' ',' ',' ',' ',' ',' ','\x1b','[','9','3','m',' ','1'] ++
    ['b','\x1b','[','3','9','m',' ',' ',' ','\x1b','[','9','3',';','7','m',' ','1','b','\x1b','[','3','9',';','2','7','m',' ',' ',' ',' '])),
  (['e','x','_','p','_','p','r','i','n','t'], ([' ','\x1b','[','3','8',';','2',';','1','0','2',';','1','0','2',';','1','0','2','m',' ','(','*',')',' ','\x1b','[','3','9','m',' ',' ',' ',' ','\x1b','[','3','8',';','5',';','1','0','2','m','!','\x1b','['] ++
    ['3','9','m','\x1b','[','3','8',';','5',';','1','0','2','m','"','\x1b','[','3','9','m',' ','\x1b','[','4','7',';','3','0','m','1','\x1b','[','4','9',';','3','9','m','\x1b','[','4','7',';','3','0','m','2','\x1b'] ++
    ['[','4','9',';','3','9','m',' ',' ',' ','\x1b','[','3','8',';','5',';','1','0','2','m',' ','2','1','\x1b','[','3','9','m','\x1b','[','3','8',';','5',';','1','0','2','m',' ','2','2','\x1b','[','3','9','m'] ++
    ['\x1b','[','4','7',';','3','0','m',' ','3','1','\x1b','[','4','9',';','3','9','m','\x1b','[','4','7',';','3','0','m',' ','3','2','\x1b','[','4','9',';','3','9','m',' ',' ',' ',' '])),
  (['e','x','_','p','_','p','r','i','n','t','2'], ([' ',' ',' ',' ',' ',' ',' ',' ',' ',' ','\x1b','[','3','8',';','5',';','1','0','2','m','A','\x1b','[','3','9','m','\x1b','[','3','8',';','5',';','1','0','2','m','B','\x1b','[','3','9','m',' ','\x1b','[','4'] ++
    ['7',';','3','0','m','}','\x1b','[','4','9',';','3','9','m','\x1b','[','4','7',';','3','0','m','~','\x1b','[','4','9',';','3','9','m',' ',' ',' ','\x1b','[','3','8',';','5',';','1','0','2','m',' ','4','1'] ++
    ['\x1b','[','3','9','m','\x1b','[','3','8',';','5',';','1','0','2','m',' ','4','2','\x1b','[','3','9','m','\x1b','[','4','7',';','3','0','m',' ','7','d','\x1b','[','4','9',';','3','9','m','\x1b','[','4','7',';'] ++
    ['3','0','m',' ','7','e','\x1b','[','4','9',';','3','9','m',' ',' ',' ',' '])),
  (['e','x','_','e','_','r','e','s','e','t','_','l','b','l'], ([' ',' ','\x1b','[','1',';','3','8',';','2',';','2','5','5',';','2','5','5',';','2','5','5',';','4','8',';','2',';','0',';','0',';','0','m',' ','θ',' ','\x1b','[','2','2',';','3','9',';','4','9','m'] ++
    [' ',' ',' ',' ',' ',' ',' ',' ',' ',' ',' ',' ',' ',' ',' ',' ',' ',' ',' ',' ',' ',' ',' ',' ',' ',' ',' ',' ',' '])),
  (['e','x','_','e','_','r','e','s','e','t','_','m','0'], ([' ',' ','\x1b','[','1',';','3','8',';','2',';','2','5','5',';','2','5','5',';','2','5','5',';','4','8',';','2',';','0',';','0',';','0','m',' ','θ',' ','\x1b','[','2','2',';','3','9',';','4','9','m'] ++
    [' ',' ',' ',' ',' ',' ',' ','\x1b','[','3','8',';','5',';','2','5','5',';','4','8',';','5',';','1','6','m','θ','\x1b','[','3','9',';','4','9','m',' ',' ',' ',' ',' ',' ',' ',' ','\x1b','[','3','8',';'] ++
    ['5',';','2','5','5',';','4','8',';','5',';','1','6','m',' ','1','b','\x1b','[','3','9',';','4','9','m','\x1b','[','3','8',';','5',';','2','5','5',';','4','8',';','5',';','1','6',';','4','8',';','5'] ++
    [';','1','6',';','4','m',' ','5','b',' ','6','d','\x1b','[','3','9',';','4','9',';','4','9',';','2','4','m',' ',' ',' ',' '])),
  (['e','x','_','e','_','r','e','s','e','t','_','m','1'], ([' ',' ',' ',' ',' ',' ',' ',' ',' ',' ',' ','\x1b','[','3','8',';','5',';','2','5','5','m','⢸','\x1b','[','3','9','m','\x1b','[','3','8',';','5',';','2','5','5',';','4','8',';','5',';','1','6','m','θ'] ++
    ['\x1b','[','3','9',';','4','9','m','\x1b','[','3','8',';','5',';','2','5','5',';','4','8',';','5',';','1','6',';','4','8',';','5',';','1','6',';','4','m','\x1b','[','3','9',';','4','9',';','4','9',';'] ++
    ['2','4','m','\x1b','[','3','8',';','5',';','2','5','5','m','⡇','\x1b','[','3','9','m',' ',' ',' ',' ',' ',' ',' ','\x1b','[','3','8',';','5',';','2','5','5',';','4','8',';','5',';','1','6','m',' ','1'] ++
    ['b','\x1b','[','3','9',';','4','9','m','\x1b','[','3','8',';','5',';','2','5','5',';','4','8',';','5',';','1','6',';','4','8',';','5',';','1','6',';','4','m',' ','5','b',' ','6','d','\x1b','[','3','9'] ++
    [';','4','9',';','4','9',';','2','4','m',' ',' ',' ',' '])),
  (['e','x','_','e','_','r','e','s','e','t','_','m','2'], ([' ',' ',' ',' ',' ',' ',' ',' ',' ',' ','\x1b','[','3','8',';','5',';','2','5','5','m','⢸','\x1b','[','3','9','m','\x1b','[','3','8',';','5',';','2','5','5',';','4','8',';','5',';','1','6','m','θ','\x1b'] ++
    ['[','3','9',';','4','9','m','\x1b','[','3','8',';','5',';','2','5','5',';','4','8',';','5',';','1','6',';','4','8',';','5',';','1','6',';','4','m','[','m','\x1b','[','3','9',';','4','9',';','4','9'] ++
    [';','2','4','m','\x1b','[','3','8',';','5',';','2','5','5','m','⡇','\x1b','[','3','9','m',' ',' ',' ',' ',' ',' ','\x1b','[','3','8',';','5',';','2','5','5',';','4','8',';','5',';','1','6','m',' ','1'] ++
    ['b','\x1b','[','3','9',';','4','9','m','\x1b','[','3','8',';','5',';','2','5','5',';','4','8',';','5',';','1','6',';','4','8',';','5',';','1','6',';','4','m',' ','5','b',' ','6','d','\x1b','[','3','9'] ++
    [';','4','9',';','4','9',';','2','4','m',' ',' ',' ',' '])),
  (['e','x','_','e','_','s','g','r','_','l','b','l'], ([' ',' ','\x1b','[','1',';','3','8',';','2',';','2','5','5',';','2','5','5',';','2','5','5',';','4','8',';','2',';','0',';','0',';','0','m',' ','ǝ',' ','\x1b','[','2','2',';','3','9',';','4','9','m'] ++
    [' ',' ',' ',' ',' ',' ',' ',' ',' ',' ',' ',' ',' ',' ',' ',' ',' ',' ',' ',' ',' ',' ',' ',' ',' ',' ',' ',' ',' '])),
  (['e','x','_','e','_','s','g','r','_','m','0'], ([' ',' ','\x1b','[','1',';','3','8',';','2',';','2','5','5',';','2','5','5',';','2','5','5',';','4','8',';','2',';','0',';','0',';','0','m',' ','ǝ',' ','\x1b','[','2','2',';','3','9',';','4','9','m'] ++
    [' ',' ',' ',' ',' ',' ',' ','\x1b','[','3','8',';','5',';','2','1','0',';','4','8',';','5',';','1','6','m','ǝ','\x1b','[','3','9',';','4','9','m',' ',' ',' ',' ',' ','\x1b','[','3','8',';','5',';','2'] ++
    ['1','0',';','4','8',';','5',';','1','6','m',' ','1','b','\x1b','[','3','9',';','4','9','m','\x1b','[','4','8',';','5',';','1','6',';','4','m',' ','5','b',' ','3','3',' ','3','\x1b','[','4','9',';','2'] ++
    ['4','m','‥',' ',' ',' ',' '])),
  (['e','x','_','e','_','s','g','r','_','m','0','c'], ([' ',' ',' ',' ',' ',' ',' ',' ',' ',' ',' ',' ','\x1b','[','3','3','m','ǝ','\x1b','[','3','9','m',' ',' ',' ',' ',' ','\x1b','[','3','3','m',' ','1','b','\x1b','[','3','9','m','\x1b','[','4','8',';','5',';'] ++
    ['1','6',';','4',';','3','3','m',' ','5','b',' ','3','3',' ','3','\x1b','[','4','9',';','2','4',';','3','9','m','‥',' ',' ',' ',' '])),
  (['e','x','_','e','_','s','g','r','_','m','1'], ([' ',' ',' ',' ',' ',' ',' ',' ',' ','\x1b','[','3','8',';','5',';','2','5','5','m','⢸','\x1b','[','3','9','m','\x1b','[','9','3','m','ǝ','\x1b','[','3','9','m','\x1b','[','4','8',';','5',';','1','6',';','4'] ++
    [';','9','3','m','9','3','\x1b','[','2','4','m','･','\x1b','[','4','m','1','\x1b','[','4','9',';','2','4',';','3','9','m','\x1b','[','3','8',';','5',';','2','5','5','m','⡇','\x1b','[','3','9','m',' ',' ','\x1b'] ++
    ['[','9','3','m',' ','1','b','\x1b','[','3','9','m','\x1b','[','4','8',';','5',';','1','6',';','4',';','9','3','m',' ','5','b',' ','3','9',' ','3','\x1b','[','4','9',';','2','4',';','3','9','m','‥',' '] ++
    [' ',' ',' '])),
  (['e','x','_','e','_','s','g','r','_','m','1','_','2'], ([' ',' ',' ',' ',' ',' ',' ','\x1b','[','3','8',';','5',';','2','5','5','m','⢸','\x1b','[','3','9','m','\x1b','[','3','8',';','5',';','8','8',';','4','8',';','5',';','1','6','m','ǝ','\x1b','[','3','9',';'] ++
    ['4','9','m','\x1b','[','4','8',';','5',';','1','6',';','4',';','3','8',';','5',';','8','8',';','4','8',';','5',';','1','6','m','F','8','8','\x1b','[','2','4','m','･','\x1b','[','4','m','B','1','6','\x1b'] ++
    ['[','4','9',';','2','4',';','3','9',';','4','9','m','\x1b','[','3','8',';','5',';','2','5','5','m','⡇','\x1b','[','3','9','m',' ','\x1b','[','3','8',';','5',';','8','8',';','4','8',';','5',';','1','6'] ++
    ['m',' ','1','b','\x1b','[','3','9',';','4','9','m','\x1b','[','4','8',';','5',';','1','6',';','4',';','3','8',';','5',';','8','8',';','4','8',';','5',';','1','6','m',' ','5','b',' ','3','3',' ','3'] ++
    ['\x1b','[','4','9',';','2','4',';','3','9',';','4','9','m','‥',' ',' ',' ',' '])),
  (['e','x','_','e','_','s','g','r','_','m','1','_','3'], ([' ',' ',' ',' ',' ',' ',' ','\x1b','[','3','8',';','5',';','2','5','5','m','⢸','\x1b','[','3','9','m','\x1b','[','3','8',';','2',';','1','7','0',';','1','0','6',';','1','0','6','m','ǝ','\x1b','[','3','9'] ++
    ['m','\x1b','[','4','8',';','5',';','1','6',';','4',';','3','8',';','2',';','1','7','0',';','1','0','6',';','1','0','6','m','F','A','A','6','A','6','A','\x1b','[','4','9',';','2','4',';','3','9','m'] ++
    ['\x1b','[','3','8',';','5',';','2','5','5','m','⡇','\x1b','[','3','9','m',' ','\x1b','[','3','8',';','2',';','1','7','0',';','1','0','6',';','1','0','6','m',' ','1','b','\x1b','[','3','9','m','\x1b','[','4'] ++
    ['8',';','5',';','1','6',';','4',';','3','8',';','2',';','1','7','0',';','1','0','6',';','1','0','6','m',' ','5','b',' ','3','3',' ','3','\x1b','[','4','9',';','2','4',';','3','9','m','‥',' ',' '] ++
    [' ',' '])),
  (['e','x','_','e','_','s','g','r','_','m','2'], ([' ',' ',' ',' ',' ',' ',' ','\x1b','[','3','8',';','5',';','2','5','5','m','⢸','\x1b','[','3','9','m','\x1b','[','3','8',';','5',';','2','1','0',';','4','8',';','5',';','1','6','m','ǝ','\x1b','[','3','9'] ++
    [';','4','9','m','\x1b','[','4','8',';','5',';','1','6',';','4','m','[','3','8',';','2',';','1','7','0',';','1','0','6',';','1','0','6','m','\x1b','[','4','9',';','2','4','m','\x1b','[','3','8',';','5'] ++
    [';','2','5','5','m','⡇','\x1b','[','3','9','m',' ',' ',' ',' '])),
  (['e','x','_','e','_','c','s','i'], ([' ',' ','\x1b','[','1',';','3','8',';','2',';','2','5','5',';','2','5','5',';','2','5','5',';','4','8',';','2',';','0',';','0',';','0','m',' ','Ͻ',' ','\x1b','[','2','2',';','3','9',';','4','9','m'] ++
    [' ',' ',' ',' ','\x1b','[','3','8',';','5',';','2','5','5','m','⢸','\x1b','[','3','9','m','\x1b','[','9','2','m','Ͻ','\x1b','[','3','9','m','\x1b','[','9','2',';','4','8',';','5',';','1','6',';','4','m','['] ++
    ['2','4','d','\x1b','[','3','9',';','4','9',';','2','4','m','\x1b','[','3','8',';','5',';','2','5','5','m','⡇','\x1b','[','3','9','m',' ',' ','\x1b','[','9','2','m',' ','1','b','\x1b','[','3','9','m','\x1b','['] ++
    ['9','2',';','4','8',';','5',';','1','6',';','4','m',' ','5','b',' ','3','2',' ','3','\x1b','[','3','9',';','4','9',';','2','4','m','‥',' ',' ',' ',' '])),
  (['e','x','_','e','_','n','f'], ([' ',' ','\x1b','[','1',';','3','8',';','2',';','2','5','5',';','2','5','5',';','2','5','5',';','4','8',';','2',';','0',';','0',';','0','m',' ','ꟻ',' ','\x1b','[','2','2',';','3','9',';','4','9','m'] ++
    [' ',' ',' ',' ',' ','\x1b','[','3','8',';','5',';','2','5','5','m','⢸','\x1b','[','3','9','m','\x1b','[','3','2',';','7','m','ꟻ','\x1b','[','3','9',';','2','7','m','\x1b','[','3','2',';','4','8',';','5',';'] ++
    ['1','6',';','4','m','(','B','\x1b','[','3','9',';','4','9',';','2','4','m','\x1b','[','3','8',';','5',';','2','5','5','m','⡇','\x1b','[','3','9','m',' ',' ',' ',' ',' ',' ','\x1b','[','3','2',';','7','m'] ++
    [' ','1','b','\x1b','[','3','9',';','2','7','m','\x1b','[','3','2',';','4','8',';','5',';','1','6',';','4','m',' ','2','8',' ','4','2','\x1b','[','3','9',';','4','9',';','2','4','m',' ',' ',' ',' '])),
  (['e','x','_','e','_','f','p'], ([' ',' ','\x1b','[','1',';','3','8',';','2',';','2','5','5',';','2','5','5',';','2','5','5',';','4','8',';','2',';','0',';','0',';','0','m',' ','ꟼ',' ','\x1b','[','2','2',';','3','9',';','4','9','m'] ++
    [' ',' ',' ',' ',' ','\x1b','[','3','8',';','5',';','2','5','5','m','⢸','\x1b','[','3','9','m','\x1b','[','3','3',';','7','m','ꟼ','\x1b','[','3','9',';','2','7','m','\x1b','[','3','3',';','4','8',';','5',';'] ++
    ['1','6',';','4','m','2','\x1b','[','3','9',';','4','9',';','2','4','m','\x1b','[','3','8',';','5',';','2','5','5','m','⡇','\x1b','[','3','9','m',' ',' ',' ',' ',' ',' ',' ',' ',' ',' ','\x1b','[','3','3'] ++
    [';','7','m',' ','1','b','\x1b','[','3','9',';','2','7','m','\x1b','[','3','3',';','4','8',';','5',';','1','6',';','4','m',' ','3','2','\x1b','[','3','9',';','4','9',';','2','4','m',' ',' ',' ',' '])),
  (['e','x','_','e','_','f','e'], ([' ',' ','\x1b','[','1',';','3','8',';','2',';','2','5','5',';','2','5','5',';','2','5','5',';','4','8',';','2',';','0',';','0',';','0','m',' ','Ǝ',' ','\x1b','[','2','2',';','3','9',';','4','9','m'] ++
    [' ',' ',' ',' ',' ',' ','\x1b','[','3','8',';','5',';','2','5','5','m','⢸','\x1b','[','3','9','m','\x1b','[','3','3','m','Ǝ','\x1b','[','3','9','m','\x1b','[','3','3',';','4','8',';','5',';','1','6',';','4'] ++
    ['m','\x1b','[','3','9',';','4','9',';','2','4','m','\x1b','[','3','8',';','5',';','2','5','5','m','⡇','\x1b','[','3','9','m',' ',' ',' ',' ',' ',' ',' ',' ',' ',' ','\x1b','[','3','3','m',' ','1','b','\x1b'] ++
    ['[','3','9','m','\x1b','[','3','3',';','4','8',';','5',';','1','6',';','4','m',' ','4','7','\x1b','[','3','9',';','4','9',';','2','4','m',' ',' ',' ',' '])),
  (['e','x','_','e','_','f','s'], ([' ',' ','\x1b','[','1',';','3','8',';','2',';','2','5','5',';','2','5','5',';','2','5','5',';','4','8',';','2',';','0',';','0',';','0','m',' ','Ꙅ',' ','\x1b','[','2','2',';','3','9',';','4','9','m'] ++
    [' ',' ',' ',' ',' ',' ',' ','\x1b','[','3','3','m','Ꙅ','\x1b','[','3','9','m',' ',' ',' ',' ',' ',' ',' ',' ',' ',' ',' ','\x1b','[','3','3','m',' ','1','b','\x1b','[','3','9','m','\x1b','[','3','3',';','4'] ++
    ['8',';','5',';','1','6',';','4','m',' ','7','3','\x1b','[','3','9',';','4','9',';','2','4','m',' ',' ',' ',' '])),
  (['e','x','_','u','_','l','b','l'], ([' ',' ','\x1b','[','1',';','3','8',';','2',';','2','5','5',';','2','5','5',';','2','5','5',';','4','8',';','2',';','0',';','0',';','0','m',' ','▯',' ','\x1b','[','2','2',';','3','9',';','4','9','m'] ++
    [' ',' ',' ',' ',' ',' ',' ',' ',' ',' ',' ',' ',' ',' ',' ',' ',' ',' ',' ',' ',' ',' ',' ',' ',' ',' ',' ',' ',' '])),
  (['e','x','_','u','_','1'], ([' ',' ','\x1b','[','1',';','3','8',';','2',';','2','5','5',';','2','5','5',';','2','5','5',';','4','8',';','2',';','0',';','0',';','0','m',' ','▯',' ','\x1b','[','2','2',';','3','9',';','4','9','m'] ++
    [' ',' ',' ',' ',' ','\x1b','[','9','4','m','▯','\x1b','[','3','9','m','\x1b','[','9','4','m','▯','\x1b','[','3','9','m',' ','\x1b','[','9','4',';','7','m','▯','\x1b','[','3','9',';','2','7','m','\x1b','[','9','4'] ++
    [';','7','m','▯','\x1b','[','3','9',';','2','7','m',' ',' ',' ','\x1b','[','9','4','m',' ','d','1','\x1b','[','3','9','m','\x1b','[','9','4','m',' ','8','5','\x1b','[','3','9','m','\x1b','[','9','4',';','7','m'] ++
    [' ','d','0','\x1b','[','3','9',';','2','7','m','\x1b','[','9','4',';','7','m',' ','b','9','\x1b','[','3','9',';','2','7','m',' ',' ',' ',' '])),
  (['e','x','_','u','_','2'], ([' ',' ','\x1b','[','1',';','3','8',';','2',';','2','5','5',';','2','5','5',';','2','5','5',';','4','8',';','2',';','0',';','0',';','0','m',' ','_',' ','\x1b','[','2','2',';','3','9',';','4','9','m'] ++
    [' ',' ',' ',' ','\x1b','[','9','4','m','_','ы','\x1b','[','3','9','m',' ','\x1b','[','9','4',';','7','m','_','_','世','\x1b','[','3','9',';','2','7','m',' ',' ','\x1b','[','9','4','m',' ','d','1',' ','8','b'] ++
    ['\x1b','[','3','9','m','\x1b','[','9','4',';','7','m',' ','e','4',' ','b','\x1b','[','3','9',';','2','7','m','‥',' ',' ',' ',' '])),
  (['e','x','_','u','_','3'], ([' ','\x1b','[','3','8',';','2',';','1','0','2',';','1','0','2',';','1','0','2','m',' ','(','*',')',' ','\x1b','[','3','9','m',' ',' ',' ',' ',' ',' ','\x1b','[','9','4','m','🐍','\x1b','[','3','9','m',' '] ++
    [' ',' ',' ','\x1b','[','9','4','m',' ','f','0',' ','9','f',' ','9','0',' ','8','d','\x1b','[','3','9','m',' ',' ',' ',' '])),
  (['e','x','_','i','_','1'], ([' ',' ','\x1b','[','1',';','3','8',';','2',';','2','5','5',';','2','5','5',';','2','5','5',';','4','8',';','2',';','0',';','0',';','0','m',' ','▯',' ','\x1b','[','2','2',';','3','9',';','4','9','m'] ++
    [' ',' ',' ',' ',' ','\x1b','[','3','5','m','▯','\x1b','[','3','9','m','\x1b','[','3','5','m','▯','\x1b','[','3','9','m',' ','\x1b','[','3','5',';','7','m','▯','\x1b','[','3','9',';','2','7','m','\x1b','[','3','5'] ++
    [';','7','m','▯','\x1b','[','3','9',';','2','7','m',' ',' ',' ','\x1b','[','3','5','m',' ','e','e','\x1b','[','3','9','m','\x1b','[','3','5','m',' ','b','0','\x1b','[','3','9','m','\x1b','[','3','5',';','7','m'] ++
    [' ','c','0','\x1b','[','3','9',';','2','7','m','\x1b','[','3','5',';','7','m',' ','c','c','\x1b','[','3','9',';','2','7','m',' ',' ',' ',' '])),
  (['e','x','_','i','_','2'], ([' ',' ','\x1b','[','1',';','3','8',';','2',';','2','5','5',';','2','5','5',';','2','5','5',';','4','8',';','2',';','0',';','0',';','0','m',' ','Ḇ',' ','\x1b','[','2','2',';','3','9',';','4','9','m'] ++
    [' ',' ',' ',' ',' ','\x1b','[','3','5','m','Ḇ','\x1b','[','3','9','m','\x1b','[','3','5','m','Ḇ','\x1b','[','3','9','m',' ','\x1b','[','3','5',';','7','m','Ḇ','\x1b','[','3','9',';','2','7','m','\x1b','[','3','5'] ++
    [';','7','m','Ḇ','\x1b','[','3','9',';','2','7','m',' ',' ',' ','\x1b','[','3','5','m',' ','c','0','\x1b','[','3','9','m','\x1b','[','3','5','m',' ','f','f','\x1b','[','3','9','m','\x1b','[','3','5',';','7','m'] ++
    [' ','e','e','\x1b','[','3','9',';','2','7','m','\x1b','[','3','5',';','7','m',' ','d','a','\x1b','[','3','9',';','2','7','m',' ',' ',' ',' '])),
  (['s','e','p','a','r','a','t','o','r'], (List.replicate 87 ['\x1b','[','3','8',';','2',';','5','1',';','5','1',';','5','1','m','─','\x1b','[','3','9','m']).flatten),
  (['f','m','t','_','h','e','a','d','e','r'], ['\x1b','[','9','7',';','1','m']),
  (['f','m','t','_','t','h','e','a','d'], ['\x1b','[','2','m']),
  (['f','m','t','_','c','c'], ['\x1b','[','1','m']),
  (['f','m','t','_','c','o','m','m','e','n','t'], ['\x1b','[','9','0','m']),
  (['f','m','t','_','p','a','r','a','m'], ['\x1b','[','9','0',';','1','m']),
  (['f','m','t','_','m','1'], ['\x1b','[','3','8',';','5',';','1','1','7','m']),
  (['f','m','t','_','m','2'], ['\x1b','[','3','8',';','2',';','2','4','8',';','1','8','4',';','1','3','7','m'])]

theorem legendParts_fine : ∀ l ∈ legendParts, ∀ p ∈ l, p.Fine := by decide +kernel

theorem legendParts_written : legendParts.map (fun l => l.flatMap TplPart.written) = legendTemplateLines.map List.flatten := by
  decide +kernel

theorem legendVars_eq : (LegendGen.variableTable []).tail.map (fun e => (e.1.toList, e.2)) = legendVars.map fun e => (e.1, some e.2) := by
  decide +kernel

/-- The lines before and after the one with the version, which is the sixth, and that line up to the version
and after it. -/
def legendBefore : List TplPart := (legendParts.take 5).flatten ++ (legendParts.drop 5).head!.takeWhile (· ≠ .variable [] ['v', 'e', 'r'] [])
def legendAfter : List TplPart :=
  ((legendParts.drop 5).head!.dropWhile (· ≠ .variable [] ['v', 'e', 'r'] [])).tail ++ (legendParts.drop 6).flatten

/-- The file up to the version, and after it. -/
def fileBefore : Str := ((legendLines.take 5).map List.flatten).flatten ++ (legendLines.drop 5).head!.flatten.takeWhile (· ≠ '1')
def fileAfter : Str := ((legendLines.drop 5).head!.flatten.dropWhile (· ≠ '1')).drop 5 ++ (((legendLines.drop 6).take 62).map List.flatten).flatten

theorem legendParts_split : legendParts.flatten = legendBefore ++ .variable [] ['v', 'e', 'r'] [] :: legendAfter := by decide +kernel

theorem legendBefore_shown : legendBefore.flatMap (TplPart.shown legendVars) = fileBefore := by decide +kernel

theorem flatMap_flatten {α β : Type} (l : List (List α)) (f : α → List β) : l.flatten.flatMap f = (l.map fun x => x.flatMap f).flatten := by
  induction l with
  | nil => rfl
  | cons a l ih => rw [List.flatten_cons, List.flatMap_append, ih]; rfl

theorem legendRest_shown : (legendParts.drop 6).map (fun l => l.flatMap (TplPart.shown legendVars)) =
    ((legendLines.drop 6).take 62).map List.flatten := by decide +kernel

theorem legendAfter_shown : legendAfter.flatMap (TplPart.shown legendVars) = fileAfter := by
  unfold legendAfter fileAfter
  rw [List.flatMap_append, flatMap_flatten (legendParts.drop 6), legendRest_shown]
  congr 1

theorem legend_known : legendBefore.flatMap TplPart.unknownFormats ++ legendAfter.flatMap TplPart.unknownFormats = [] ∧
    legendBefore.flatMap (TplPart.unknownVariables legendVars) ++ legendAfter.flatMap (TplPart.unknownVariables legendVars) = [] := by decide +kernel

theorem legendFile_split : legendFile = fileBefore ++ "1.5.3".toList ++ fileAfter ++ "# Generated at 22-May-23 04:12".toList := by
  have e : legendLines = legendLines.take 5 ++ ([(legendLines.drop 5).head!] ++ ((legendLines.drop 6).take 62 ++ [(legendLines.drop 68).head!])) := by
    decide +kernel
  have e1 : (legendLines.drop 5).head!.flatten = (legendLines.drop 5).head!.flatten.takeWhile (· ≠ '1') ++ ("1.5.3".toList ++
      ((legendLines.drop 5).head!.flatten.dropWhile (· ≠ '1')).drop 5) := by decide +kernel
  have e2 : (legendLines.drop 68).head!.flatten = "# Generated at 22-May-23 04:12".toList := by decide +kernel
  unfold legendFile fileBefore fileAfter
  conv => lhs; rw [e]
  simp only [List.map_append, List.map_cons, List.map_nil, List.flatten_append, List.flatten_cons, List.flatten_nil, List.append_nil]
  rw [e2]
  conv => lhs; rw [e1]
  simp only [List.append_assoc]

/-- No other part has the version. -/
def notVersion : TplPart → Bool
  | .variable _ name _ => name != ['v', 'e', 'r']
  | _ => true

theorem legend_once : (legendBefore ++ legendAfter).all notVersion = true := by decide +kernel

theorem shown_version (v : Str) (vars : List (Str × Str)) (p : TplPart) (h : notVersion p = true) :
    TplPart.shown ((['v', 'e', 'r'], v) :: vars) p = TplPart.shown vars p ∧
    TplPart.unknownVariables ((['v', 'e', 'r'], v) :: vars) p = TplPart.unknownVariables vars p := by
  cases p with
  | text s => exact ⟨rfl, rfl⟩
  | comment s => exact ⟨rfl, rfl⟩
  | format l items r => exact ⟨rfl, rfl⟩
  | «variable» l name r =>
    have hn : (name == ['v', 'e', 'r']) = false := by
      simp only [notVersion, bne, Bool.not_eq_true'] at h
      exact h
    constructor
    · simp only [TplPart.shown, List.lookup_cons, hn]
    · simp only [TplPart.unknownVariables, List.lookup_cons, hn]

theorem flatMap_eq_of {α β : Type} {l : List α} {f g : α → List β} (h : ∀ x ∈ l, f x = g x) : l.flatMap f = l.flatMap g := by
  induction l with
  | nil => rfl
  | cons a l ih => rw [List.flatMap_cons, List.flatMap_cons, h a (by simp), ih fun x hx => h x (by simp [hx])]

theorem mapM_all : ∀ (l : List (String × Option Str)) (m : List (Str × Str)),
    l.map (fun e => (e.1.toList, e.2)) = m.map (fun e => (e.1, some e.2)) →
    l.mapM (fun e => e.2.map fun v => (e.1.toList, v)) = some m
  | [], [], _ => rfl
  | [], _ :: _, h => by simp at h
  | _ :: _, [], h => by simp at h
  | a :: l, b :: m, h => by
    simp only [List.map_cons, List.cons.injEq, Prod.mk.injEq] at h
    rw [List.mapM_cons, mapM_all l m h.2]
    simp [h.1.1, h.1.2]

theorem allVariables_eq (version : Str) : LegendGen.allVariables version = some ((['v', 'e', 'r'], version) :: legendVars) := by
  unfold LegendGen.allVariables
  rw [show LegendGen.variableTable version = ("ver", some version) :: (LegendGen.variableTable []).tail from rfl, List.mapM_cons,
    mapM_all _ _ legendVars_eq]
  simp only [Option.map_some, show ("ver" : String).toList = ['v', 'e', 'r'] from by decide]
  rfl

theorem legendTemplate_parts : legendTemplate = legendParts.flatten.flatMap TplPart.written := by
  unfold legendTemplate
  rw [← legendParts_written, List.flatMap_def, List.map_flatten, List.flatten_flatten, List.map_map]
  rfl

/-- C87: the bundled legend is, character by character, what the generator makes of the template with the
examples the templates of the program give for the default settings; it depends on nothing but the version and the date.
No format or variable of the template is unknown. -/
theorem C87_legend : ∃ before after : Str,
    legendFile = before ++ "1.5.3".toList ++ after ++ "# Generated at 22-May-23 04:12".toList ∧
    ∀ (tbl : CharTable) (version date : Str),
      LegendGen.generate tbl version legendTemplate date = some (before ++ version ++ after ++ "# Generated at ".toList ++ date) ∧
      ∃ vars, LegendGen.allVariables version = some vars ∧
        (substituteTpl tbl [] legendTemplate (some vars)).1 = .ok (before ++ version ++ after, []) := by
  refine ⟨fileBefore, fileAfter, legendFile_split, fun tbl version date => ?_⟩
  have hf : ∀ p ∈ legendParts.flatten, p.Fine := by
    intro p hp
    obtain ⟨l, hl, hp⟩ := List.mem_flatten.1 hp
    exact legendParts_fine l hl p hp
  have hb : ∀ p ∈ legendBefore, notVersion p = true := fun p hp => List.all_eq_true.1 legend_once p (by simp [hp])
  have ha : ∀ p ∈ legendAfter, notVersion p = true := fun p hp => List.all_eq_true.1 legend_once p (by simp [hp])
  have hs : (substituteTpl tbl [] legendTemplate (some ((['v', 'e', 'r'], version) :: legendVars))).1 =
      .ok (fileBefore ++ version ++ fileAfter, []) := by
    rw [legendTemplate_parts, C86_template_partial tbl [] _ _ hf]
    have e : (if (some ((['v', 'e', 'r'], version) :: legendVars) : Option (List (Str × Str))) = none ∨
        some ((['v', 'e', 'r'], version) :: legendVars) = some [] then [] else
        (some ((['v', 'e', 'r'], version) :: legendVars)).getD []) = (['v', 'e', 'r'], version) :: legendVars := by
      rw [if_neg]
      · rfl
      · simp
    simp only [e]
    rw [legendParts_split]
    simp only [List.flatMap_append, List.flatMap_cons]
    rw [flatMap_eq_of fun p hp => (shown_version version legendVars p (hb p hp)).1,
      flatMap_eq_of fun p hp => (shown_version version legendVars p (ha p hp)).1,
      flatMap_eq_of fun p hp => (shown_version version legendVars p (hb p hp)).2,
      flatMap_eq_of fun p hp => (shown_version version legendVars p (ha p hp)).2, legendBefore_shown, legendAfter_shown]
    obtain ⟨k1, k2⟩ := legend_known
    rw [List.append_eq_nil_iff] at k1 k2
    rw [k1.1, k1.2, k2.1, k2.2]
    simp [TplPart.shown, TplPart.unknownFormats, TplPart.unknownVariables, List.lookup_cons]
  refine ⟨?_, _, allVariables_eq version, hs⟩
  unfold LegendGen.generate
  rw [allVariables_eq]
  simp only [hs]
  have hl : (fileBefore ++ version ++ fileAfter).getLast? = some '\n' := by
    rw [List.getLast?_append, show fileAfter.getLast? = some '\n' by decide +kernel]
    rfl
  rw [if_pos hl]

/-- With the version and the date of the file. -/
example : LegendGen.generate CharTable.ascii "1.5.3".toList legendTemplate "22-May-23 04:12".toList = some legendFile := by
  obtain ⟨b, a, h1, h2⟩ := C87_legend
  rw [h1, (h2 _ _ _).1]
  simp

end Kolombos
