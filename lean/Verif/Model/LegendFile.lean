import Verif.Model.Base
/-
kolombos/legend.ansi
-/
namespace Kolombos

set_option maxRecDepth 20000 in
/-- The lines of the bundled legend (/repo/kolombos/legend.ansi), each in one or more parts. -/
def legendLines : List (List Str) := [
  [['\x1b','[','1',';','9','2','m',' ',' ',' ',' ','_','_',' ',' ',' ',' ',' ',' ',' ',' ',' '],
   ['\x1b','[','3','4','m','_','_',' ',' ',' ',' ',' ',' ',' ',' ',' ',' ',' ',' ',' ',' ',' ',' ','_','_','\x1b','[','m','\n']],
  [['\x1b','[','1',';','9','2','m',' ',' ',' ','/',' ','/','\x1b','[','9','2','m','_','_'],
   ['\x1b','[','9','4','m','_','_','_','_',' ',' ','/',' ','/','_','_','_',' ',' ','_','_','_','_',' ','_','_','_',' ',' ','/',' ','/','_',' ',' ','_','_','_','_',' '],
   ['\x1b','[','9','3','m',' ','_','_','_','_','_','\x1b','[','m','\n']],
  [['\x1b','[','1',';','3','2','m',' ',' ','/',' ','/','/','_','/','\x1b','[','3','6','m',' ','_','_',' ','\\','/',' ','/',' ','_','_',' ','\\'],
   ['\x1b','[','3','5','m','/',' ','_','_',' ','\'','_','_',' ','\\','/',' ','_','_',' ','\\','/',' ','_','_',' ','\\','\x1b','[','3','3','m','/',' ','_','_','_','/'],
   ['\x1b','[','m','\n']],
  [['\x1b','[','1',';','9','4','m',' ','/',' ',',','<',' ','\x1b','[','3','6','m','/',' ','/','_','/',' ','/',' ','/',' ','/','_','/',' '],
   ['\x1b','[','3','5','m','/',' ','/',' ','/',' ','/',' ','/',' ','/',' ','/','_','/',' ','/',' ','/','_','/',' ','\x1b','[','3','3','m','(','_','_',' ',' ',')'],
   ['\x1b','[','m','\n']],
  [['\x1b','[','1',';','3','4','m','/','_','/','|','_','|'],
   ['\x1b','[','3','4','m','\\','_','_','_','_','/','_','/','\\','_','_','_','_','/','_','/',' ','/','_','/',' ','/','_','/','\\','.','_','_','_','/','\\','_','_','_','_'],
   ['\x1b','[','3','3','m','/','_','_','_','_','/','\x1b','[','m','\n']],
  [[' ',' ',' ',' ',' ',' ',' ',' ',' ',' ',' ',' ',' ',' ',' ',' ',' ',' ',' ',' ',' ',' ',' ',' ',' ',' ',' ',' ',' ',' ',' ',' ',' ',' ',' ',' ',' ',' ',' ',' ',' ',' ',' ',' '],
   ['\x1b','[','9','3','m','v','1','.','5','.','3','\x1b','[','m','\n']],
  [['\n']],
  [['\x1b','[','9','7',';','1','m','C','H','A','R','A','C','T','E','R',' ','C','L','A','S','S','E','S','\x1b','[','m','\n']],
  [[' ',' ','\x1b','[','9','0','m','<','\x1b','[','m','\x1b','[','1','m','S','\x1b','[','m','\x1b','[','9','0','m','>'],
   ['\x1b','[','m',' ',' ',' ','A','S','C','I','I',' ','w','h','i','t','e','s','p','a','c','e',' ','c','h','a','r','s',' ',' ',' ','0','9','-','0','d',',',' ','2','0',' ',' ',' ',' ',' ',' '],
   ['\x1b','[','9','0',';','1','m','-','s',' ','-','S','\x1b','[','m','\n']],
  [[' ',' ','\x1b','[','9','0','m','<','\x1b','[','m','\x1b','[','1','m','C','\x1b','[','m','\x1b','[','9','0','m','>'],
   ['\x1b','[','m',' ',' ',' ','A','S','C','I','I',' ','c','o','n','t','r','o','l',' ','c','h','a','r','s',' ',' ',' ',' ',' ',' ','0','1','-','0','8',',',' ','0','e','-','1','f',' ',' ',' '],
   ['\x1b','[','9','0',';','1','m','-','c',' ','-','C','\x1b','[','m','\n']],
  [[' ',' ','\x1b','[','9','0','m','<','\x1b','[','m','\x1b','[','1','m','P','\x1b','[','m','\x1b','[','9','0','m','>'],
   ['\x1b','[','m',' ',' ',' ','A','S','C','I','I',' ','p','r','i','n','t','a','b','l','e',' ','c','h','a','r','s',' ',' ',' ',' ','2','1','-','7','e',' ',' ',' ',' ',' ',' ',' ',' ',' ',' '],
   ['\x1b','[','9','0',';','1','m','-','p',' ','-','P','\x1b','[','m','\n']],
  [[' ',' ','\x1b','[','9','0','m','<','\x1b','[','m','\x1b','[','1','m','I','\x1b','[','m','\x1b','[','9','0','m','>'],
   ['\x1b','[','m',' ',' ',' ','b','i','n','a','r','y',' ','d','a','t','a',' ',' ',' ',' ',' ',' ',' ',' ',' ',' ',' ',' ',' ',' ','8','0','-','f','f',' ',' ',' ',' ',' ',' ',' ',' ',' ',' '],
   ['\x1b','[','9','0',';','1','m','-','i',' ','-','I','\x1b','[','m','\n']],
  [[' ',' ','\x1b','[','9','0','m','<','\x1b','[','m','\x1b','[','1','m','U','\x1b','[','m','\x1b','[','9','0','m','>'],
   ['\x1b','[','m',' ',' ',' ','U','T','F','-','8',' ','s','e','q','u','e','n','c','e','s',' ',' ',' ',' ',' ',' ',' ',' ',' ',' ','v','a','r','i','o','u','s',' ',' ',' ',' ',' ',' ',' ',' '],
   ['\x1b','[','9','0',';','1','m','-','u',' ','-','U','\x1b','[','m','\n']],
  [[' ',' ','\x1b','[','9','0','m','<','\x1b','[','m','\x1b','[','1','m','E','\x1b','[','m','\x1b','[','9','0','m','>'],
   ['\x1b','[','m',' ',' ',' ','A','N','S','I',' ','e','s','c','a','p','e',' ','s','e','q','u','e','n','c','e','s',' ',' ',' ',' ','1','b','[','.','.',']',' ',' ',' ',' ',' ',' ',' ',' ',' '],
   ['\x1b','[','9','0',';','1','m','-','e',' ','-','E','\x1b','[','m','\n']],
  [['\n']],
  [['\x1b','[','9','7',';','1','m','S','I','G','I','L','S','\x1b','[','m','\n']],
  [[' ','\x1b','[','2','m','C','H','A','R','(','s',')','\x1b','[','m',' '],
   ['\x1b','[','2','m','O','U','T','P','U','T',' ','(','r','e','g','u','l','a','r','/','f','o','c','u','s','e','d',')','\x1b','[','m',' ',' ','\x1b','[','2','m','C','L','S'],
   ['\x1b','[','m',' '],
   ['\x1b','[','2','m',' ',' ',' ',' ',' ',' ',' ',' ',' ',' ',' ',' ',' ','D','E','S','C','R','I','P','T','I','O','N',' ','a','n','d',' ','N','O','T','E','S',' ',' ',' ',' ',' ',' ',' ',' ',' ',' ',' ',' ',' ',' ',' ',' ',' ',' ',' ',' ',' ',' ',' ',' ',' ',' ',' ',' '],
   ['\x1b','[','m','\n']],
  [[' ',' ',' ',' ',' ',' ',' ',' ',' ','\x1b','[','2','m','T','E','X','T',' ','m','o','d','e','\x1b','[','m',' '],
   ['\x1b','[','2','m',' ','B','I','N','A','R','Y',' ','m','o','d','e',' ','\x1b','[','m','\n']],
  [[' ','\x1b','[','3','8',';','2',';','5','1',';','5','1',';','5','1','m','─','\x1b','[','3','9','m','\x1b','[','3','8',';','2',';','5','1',';','5','1',';','5','1','m','─'],
   ['\x1b','[','3','9','m','\x1b','[','3','8',';','2',';','5','1',';','5','1',';','5','1','m','─','\x1b','[','3','9','m'],
   ['\x1b','[','3','8',';','2',';','5','1',';','5','1',';','5','1','m','─','\x1b','[','3','9','m','\x1b','[','3','8',';','2',';','5','1',';','5','1',';','5','1','m','─'],
   ['\x1b','[','3','9','m','\x1b','[','3','8',';','2',';','5','1',';','5','1',';','5','1','m','─','\x1b','[','3','9','m'],
   ['\x1b','[','3','8',';','2',';','5','1',';','5','1',';','5','1','m','─','\x1b','[','3','9','m','\x1b','[','3','8',';','2',';','5','1',';','5','1',';','5','1','m','─'],
   ['\x1b','[','3','9','m','\x1b','[','3','8',';','2',';','5','1',';','5','1',';','5','1','m','─','\x1b','[','3','9','m'],
   ['\x1b','[','3','8',';','2',';','5','1',';','5','1',';','5','1','m','─','\x1b','[','3','9','m','\x1b','[','3','8',';','2',';','5','1',';','5','1',';','5','1','m','─'],
   ['\x1b','[','3','9','m','\x1b','[','3','8',';','2',';','5','1',';','5','1',';','5','1','m','─','\x1b','[','3','9','m'],
   ['\x1b','[','3','8',';','2',';','5','1',';','5','1',';','5','1','m','─','\x1b','[','3','9','m','\x1b','[','3','8',';','2',';','5','1',';','5','1',';','5','1','m','─'],
   ['\x1b','[','3','9','m','\x1b','[','3','8',';','2',';','5','1',';','5','1',';','5','1','m','─','\x1b','[','3','9','m'],
   ['\x1b','[','3','8',';','2',';','5','1',';','5','1',';','5','1','m','─','\x1b','[','3','9','m','\x1b','[','3','8',';','2',';','5','1',';','5','1',';','5','1','m','─'],
   ['\x1b','[','3','9','m','\x1b','[','3','8',';','2',';','5','1',';','5','1',';','5','1','m','─','\x1b','[','3','9','m'],
   ['\x1b','[','3','8',';','2',';','5','1',';','5','1',';','5','1','m','─','\x1b','[','3','9','m','\x1b','[','3','8',';','2',';','5','1',';','5','1',';','5','1','m','─'],
   ['\x1b','[','3','9','m','\x1b','[','3','8',';','2',';','5','1',';','5','1',';','5','1','m','─','\x1b','[','3','9','m'],
   ['\x1b','[','3','8',';','2',';','5','1',';','5','1',';','5','1','m','─','\x1b','[','3','9','m','\x1b','[','3','8',';','2',';','5','1',';','5','1',';','5','1','m','─'],
   ['\x1b','[','3','9','m','\x1b','[','3','8',';','2',';','5','1',';','5','1',';','5','1','m','─','\x1b','[','3','9','m'],
   ['\x1b','[','3','8',';','2',';','5','1',';','5','1',';','5','1','m','─','\x1b','[','3','9','m','\x1b','[','3','8',';','2',';','5','1',';','5','1',';','5','1','m','─'],
   ['\x1b','[','3','9','m','\x1b','[','3','8',';','2',';','5','1',';','5','1',';','5','1','m','─','\x1b','[','3','9','m'],
   ['\x1b','[','3','8',';','2',';','5','1',';','5','1',';','5','1','m','─','\x1b','[','3','9','m','\x1b','[','3','8',';','2',';','5','1',';','5','1',';','5','1','m','─'],
   ['\x1b','[','3','9','m','\x1b','[','3','8',';','2',';','5','1',';','5','1',';','5','1','m','─','\x1b','[','3','9','m'],
   ['\x1b','[','3','8',';','2',';','5','1',';','5','1',';','5','1','m','─','\x1b','[','3','9','m','\x1b','[','3','8',';','2',';','5','1',';','5','1',';','5','1','m','─'],
   ['\x1b','[','3','9','m','\x1b','[','3','8',';','2',';','5','1',';','5','1',';','5','1','m','─','\x1b','[','3','9','m'],
   ['\x1b','[','3','8',';','2',';','5','1',';','5','1',';','5','1','m','─','\x1b','[','3','9','m','\x1b','[','3','8',';','2',';','5','1',';','5','1',';','5','1','m','─'],
   ['\x1b','[','3','9','m','\x1b','[','3','8',';','2',';','5','1',';','5','1',';','5','1','m','─','\x1b','[','3','9','m'],
   ['\x1b','[','3','8',';','2',';','5','1',';','5','1',';','5','1','m','─','\x1b','[','3','9','m','\x1b','[','3','8',';','2',';','5','1',';','5','1',';','5','1','m','─'],
   ['\x1b','[','3','9','m','\x1b','[','3','8',';','2',';','5','1',';','5','1',';','5','1','m','─','\x1b','[','3','9','m'],
   ['\x1b','[','3','8',';','2',';','5','1',';','5','1',';','5','1','m','─','\x1b','[','3','9','m','\x1b','[','3','8',';','2',';','5','1',';','5','1',';','5','1','m','─'],
   ['\x1b','[','3','9','m','\x1b','[','3','8',';','2',';','5','1',';','5','1',';','5','1','m','─','\x1b','[','3','9','m'],
   ['\x1b','[','3','8',';','2',';','5','1',';','5','1',';','5','1','m','─','\x1b','[','3','9','m','\x1b','[','3','8',';','2',';','5','1',';','5','1',';','5','1','m','─'],
   ['\x1b','[','3','9','m','\x1b','[','3','8',';','2',';','5','1',';','5','1',';','5','1','m','─','\x1b','[','3','9','m'],
   ['\x1b','[','3','8',';','2',';','5','1',';','5','1',';','5','1','m','─','\x1b','[','3','9','m','\x1b','[','3','8',';','2',';','5','1',';','5','1',';','5','1','m','─'],
   ['\x1b','[','3','9','m','\x1b','[','3','8',';','2',';','5','1',';','5','1',';','5','1','m','─','\x1b','[','3','9','m'],
   ['\x1b','[','3','8',';','2',';','5','1',';','5','1',';','5','1','m','─','\x1b','[','3','9','m','\x1b','[','3','8',';','2',';','5','1',';','5','1',';','5','1','m','─'],
   ['\x1b','[','3','9','m','\x1b','[','3','8',';','2',';','5','1',';','5','1',';','5','1','m','─','\x1b','[','3','9','m'],
   ['\x1b','[','3','8',';','2',';','5','1',';','5','1',';','5','1','m','─','\x1b','[','3','9','m','\x1b','[','3','8',';','2',';','5','1',';','5','1',';','5','1','m','─'],
   ['\x1b','[','3','9','m','\x1b','[','3','8',';','2',';','5','1',';','5','1',';','5','1','m','─','\x1b','[','3','9','m'],
   ['\x1b','[','3','8',';','2',';','5','1',';','5','1',';','5','1','m','─','\x1b','[','3','9','m','\x1b','[','3','8',';','2',';','5','1',';','5','1',';','5','1','m','─'],
   ['\x1b','[','3','9','m','\x1b','[','3','8',';','2',';','5','1',';','5','1',';','5','1','m','─','\x1b','[','3','9','m'],
   ['\x1b','[','3','8',';','2',';','5','1',';','5','1',';','5','1','m','─','\x1b','[','3','9','m','\x1b','[','3','8',';','2',';','5','1',';','5','1',';','5','1','m','─'],
   ['\x1b','[','3','9','m','\x1b','[','3','8',';','2',';','5','1',';','5','1',';','5','1','m','─','\x1b','[','3','9','m'],
   ['\x1b','[','3','8',';','2',';','5','1',';','5','1',';','5','1','m','─','\x1b','[','3','9','m','\x1b','[','3','8',';','2',';','5','1',';','5','1',';','5','1','m','─'],
   ['\x1b','[','3','9','m','\x1b','[','3','8',';','2',';','5','1',';','5','1',';','5','1','m','─','\x1b','[','3','9','m'],
   ['\x1b','[','3','8',';','2',';','5','1',';','5','1',';','5','1','m','─','\x1b','[','3','9','m','\x1b','[','3','8',';','2',';','5','1',';','5','1',';','5','1','m','─'],
   ['\x1b','[','3','9','m','\x1b','[','3','8',';','2',';','5','1',';','5','1',';','5','1','m','─','\x1b','[','3','9','m'],
   ['\x1b','[','3','8',';','2',';','5','1',';','5','1',';','5','1','m','─','\x1b','[','3','9','m','\x1b','[','3','8',';','2',';','5','1',';','5','1',';','5','1','m','─'],
   ['\x1b','[','3','9','m','\x1b','[','3','8',';','2',';','5','1',';','5','1',';','5','1','m','─','\x1b','[','3','9','m'],
   ['\x1b','[','3','8',';','2',';','5','1',';','5','1',';','5','1','m','─','\x1b','[','3','9','m','\x1b','[','3','8',';','2',';','5','1',';','5','1',';','5','1','m','─'],
   ['\x1b','[','3','9','m','\x1b','[','3','8',';','2',';','5','1',';','5','1',';','5','1','m','─','\x1b','[','3','9','m'],
   ['\x1b','[','3','8',';','2',';','5','1',';','5','1',';','5','1','m','─','\x1b','[','3','9','m','\x1b','[','3','8',';','2',';','5','1',';','5','1',';','5','1','m','─'],
   ['\x1b','[','3','9','m','\x1b','[','3','8',';','2',';','5','1',';','5','1',';','5','1','m','─','\x1b','[','3','9','m'],
   ['\x1b','[','3','8',';','2',';','5','1',';','5','1',';','5','1','m','─','\x1b','[','3','9','m','\x1b','[','3','8',';','2',';','5','1',';','5','1',';','5','1','m','─'],
   ['\x1b','[','3','9','m','\x1b','[','3','8',';','2',';','5','1',';','5','1',';','5','1','m','─','\x1b','[','3','9','m'],
   ['\x1b','[','3','8',';','2',';','5','1',';','5','1',';','5','1','m','─','\x1b','[','3','9','m','\x1b','[','3','8',';','2',';','5','1',';','5','1',';','5','1','m','─'],
   ['\x1b','[','3','9','m','\x1b','[','3','8',';','2',';','5','1',';','5','1',';','5','1','m','─','\x1b','[','3','9','m'],
   ['\x1b','[','3','8',';','2',';','5','1',';','5','1',';','5','1','m','─','\x1b','[','3','9','m','\x1b','[','3','8',';','2',';','5','1',';','5','1',';','5','1','m','─'],
   ['\x1b','[','3','9','m','\x1b','[','3','8',';','2',';','5','1',';','5','1',';','5','1','m','─','\x1b','[','3','9','m'],
   ['\x1b','[','3','8',';','2',';','5','1',';','5','1',';','5','1','m','─','\x1b','[','3','9','m','\x1b','[','3','8',';','2',';','5','1',';','5','1',';','5','1','m','─'],
   ['\x1b','[','3','9','m','\x1b','[','3','8',';','2',';','5','1',';','5','1',';','5','1','m','─','\x1b','[','3','9','m','\n']],
  [[' ',' ',' ','\x1b','[','1',';','3','8',';','2',';','2','5','5',';','2','5','5',';','2','5','5',';','4','8',';','2',';','0',';','0',';','0','m',' ','⇥',' '],
   ['\x1b','[','2','2',';','3','9',';','4','9','m',' ',' ',' ',' ',' ',' ','\x1b','[','9','6','m','⇥','\x1b','[','3','9','m',' ','\x1b','[','4','6',';','3','0','m','⇥'],
   ['\x1b','[','4','9',';','3','9','m',' ',' ',' ',' ',' ',' ',' ','\x1b','[','9','6','m',' ','0','9','\x1b','[','3','9','m',' ',' ',' '],
   ['\x1b','[','4','6',';','3','0','m',' ','0','9','\x1b','[','4','9',';','3','9','m',' ',' ',' ',' ','\x1b','[','9','0','m','<','\x1b','[','m','\x1b','[','1','m'],
   ['\x1b','[','1','m','S','\x1b','[','m','\x1b','[','9','0','m','>','\x1b','[','m',' ','h','o','r','i','z','o','n','t','a','l',' ','t','a','b',' ',' ',' ',' '],
   ['\x1b','[','9','0','m','H','T',' ',' ','"','\x1b','[','1','m','\\','t','\x1b','[','m'],
   ['\x1b','[','9','0','m','"',' ',' ',' ',' ',' ',' ',' ',' ','o','r','i','g','i','n',' ','i','s',' ','k','e','p','t',';','\x1b','[','m','\n']],
  [[' ',' ',' ','\x1b','[','1',';','3','8',';','2',';','2','5','5',';','2','5','5',';','2','5','5',';','4','8',';','2',';','0',';','0',';','0','m',' ','↵',' '],
   ['\x1b','[','2','2',';','3','9',';','4','9','m',' ',' ',' ',' ',' ',' ','\x1b','[','9','6','m','↵','\x1b','[','3','9','m',' ','\x1b','[','4','6',';','3','0','m','↵'],
   ['\x1b','[','4','9',';','3','9','m',' ',' ',' ',' ',' ',' ',' ','\x1b','[','9','6','m',' ','0','a','\x1b','[','3','9','m',' ',' ',' '],
   ['\x1b','[','4','6',';','3','0','m',' ','0','a','\x1b','[','4','9',';','3','9','m',' ',' ',' ',' ','\x1b','[','9','0','m','<','\x1b','[','m','\x1b','[','1','m','S','\x1b','[','m'],
   ['\x1b','[','9','0','m','>','\x1b','[','m',' ','l','i','n','e',' ','f','e','e','d',' ',' ',' ',' ',' ',' ',' ',' ',' ','\x1b','[','9','0','m','L','F',' ',' ','"'],
   ['\x1b','[','1','m','\\','n','\x1b','[','m','\x1b','[','9','0','m','"',' ',' ',' ',' ',' ',' ',' ',' ','o','r','i','g','i','n',' ','i','s',' ','k','e','p','t',';'],
   ['\x1b','[','m','\n']],
  [[' ',' ',' ','\x1b','[','1',';','3','8',';','2',';','2','5','5',';','2','5','5',';','2','5','5',';','4','8',';','2',';','0',';','0',';','0','m',' ','⤓',' '],
   ['\x1b','[','2','2',';','3','9',';','4','9','m',' ',' ',' ',' ',' ',' ','\x1b','[','9','6','m','⤓','\x1b','[','3','9','m',' ','\x1b','[','4','6',';','3','0','m','⤓'],
   ['\x1b','[','4','9',';','3','9','m',' ',' ',' ',' ',' ',' ',' ','\x1b','[','9','6','m',' ','0','b','\x1b','[','3','9','m',' ',' ',' '],
   ['\x1b','[','4','6',';','3','0','m',' ','0','b','\x1b','[','4','9',';','3','9','m',' ',' ',' ',' ','\x1b','[','9','0','m','<','\x1b','[','m','\x1b','[','1','m','S','\x1b','[','m'],
   ['\x1b','[','9','0','m','>','\x1b','[','m',' ','v','e','r','t','i','c','a','l',' ','t','a','b',' ',' ',' ',' ',' ',' ','\x1b','[','9','0','m','V','T',' ',' ','"'],
   ['\x1b','[','1','m','\\','v','\x1b','[','m','\x1b','[','9','0','m','"','\x1b','[','m','\n']],
  [[' ',' ',' ','\x1b','[','1',';','3','8',';','2',';','2','5','5',';','2','5','5',';','2','5','5',';','4','8',';','2',';','0',';','0',';','0','m',' ','↡',' '],
   ['\x1b','[','2','2',';','3','9',';','4','9','m',' ',' ',' ',' ',' ',' ','\x1b','[','9','6','m','↡','\x1b','[','3','9','m',' ','\x1b','[','4','6',';','3','0','m','↡'],
   ['\x1b','[','4','9',';','3','9','m',' ',' ',' ',' ',' ',' ',' ','\x1b','[','9','6','m',' ','0','c','\x1b','[','3','9','m',' ',' ',' '],
   ['\x1b','[','4','6',';','3','0','m',' ','0','c','\x1b','[','4','9',';','3','9','m',' ',' ',' ',' ','\x1b','[','9','0','m','<','\x1b','[','m','\x1b','[','1','m','S','\x1b','[','m'],
   ['\x1b','[','9','0','m','>','\x1b','[','m',' ','f','o','r','m',' ','f','e','e','d',' ',' ',' ',' ',' ',' ',' ',' ',' ','\x1b','[','9','0','m','F','F',' ',' ','"'],
   ['\x1b','[','1','m','\\','f','\x1b','[','m','\x1b','[','9','0','m','"','\x1b','[','m','\n']],
  [[' ',' ',' ','\x1b','[','1',';','3','8',';','2',';','2','5','5',';','2','5','5',';','2','5','5',';','4','8',';','2',';','0',';','0',';','0','m',' ','⇤',' '],
   ['\x1b','[','2','2',';','3','9',';','4','9','m',' ',' ',' ',' ',' ',' ','\x1b','[','9','6','m','⇤','\x1b','[','3','9','m',' ','\x1b','[','4','6',';','3','0','m','⇤'],
   ['\x1b','[','4','9',';','3','9','m',' ',' ',' ',' ',' ',' ',' ','\x1b','[','9','6','m',' ','0','d','\x1b','[','3','9','m',' ',' ',' '],
   ['\x1b','[','4','6',';','3','0','m',' ','0','d','\x1b','[','4','9',';','3','9','m',' ',' ',' ',' ','\x1b','[','9','0','m','<','\x1b','[','m','\x1b','[','1','m','S','\x1b','[','m'],
   ['\x1b','[','9','0','m','>','\x1b','[','m',' ','c','a','r','r','i','a','g','e',' ','r','e','t','u','r','n',' ',' ',' ','\x1b','[','9','0','m','C','R',' ',' ','"'],
   ['\x1b','[','1','m','\\','r','\x1b','[','m','\x1b','[','9','0','m','"','\x1b','[','m','\n']],
  [[' ','\x1b','[','1',';','3','8',';','2',';','2','5','5',';','2','5','5',';','2','5','5',';','4','8',';','2',';','0',';','0',';','0','m',' ','␣',' '],
   ['\x1b','[','2','2',';','3','9',';','4','9','m',' '],
   ['\x1b','[','1',';','3','8',';','2',';','2','5','5',';','2','5','5',';','2','5','5',';','4','8',';','2',';','0',';','0',';','0','m',' ','·',' '],
   ['\x1b','[','2','2',';','3','9',';','4','9','m',' ',' ',' ',' ','\x1b','[','9','6','m','␣','\x1b','[','3','9','m',' ','\x1b','[','4','6',';','3','0','m','·'],
   ['\x1b','[','4','9',';','3','9','m',' ',' ',' ',' ',' ',' ',' ','\x1b','[','9','6','m',' ','2','0','\x1b','[','3','9','m',' ',' ',' '],
   ['\x1b','[','4','6',';','3','0','m',' ','2','0','\x1b','[','4','9',';','3','9','m',' ',' ',' ',' ','\x1b','[','9','0','m','<','\x1b','[','m','\x1b','[','1','m','S','\x1b','[','m'],
   ['\x1b','[','9','0','m','>','\x1b','[','m',' ','s','p','a','c','e',' ',' ',' ',' ',' ',' ',' ',' ',' ',' ',' ',' ',' ','\x1b','[','9','0','m','S','P','\n']],
  [[' ','\x1b','[','3','8',';','2',';','5','1',';','5','1',';','5','1','m','─','\x1b','[','3','9','m','\x1b','[','3','8',';','2',';','5','1',';','5','1',';','5','1','m','─'],
   ['\x1b','[','3','9','m','\x1b','[','3','8',';','2',';','5','1',';','5','1',';','5','1','m','─','\x1b','[','3','9','m'],
   ['\x1b','[','3','8',';','2',';','5','1',';','5','1',';','5','1','m','─','\x1b','[','3','9','m','\x1b','[','3','8',';','2',';','5','1',';','5','1',';','5','1','m','─'],
   ['\x1b','[','3','9','m','\x1b','[','3','8',';','2',';','5','1',';','5','1',';','5','1','m','─','\x1b','[','3','9','m'],
   ['\x1b','[','3','8',';','2',';','5','1',';','5','1',';','5','1','m','─','\x1b','[','3','9','m','\x1b','[','3','8',';','2',';','5','1',';','5','1',';','5','1','m','─'],
   ['\x1b','[','3','9','m','\x1b','[','3','8',';','2',';','5','1',';','5','1',';','5','1','m','─','\x1b','[','3','9','m'],
   ['\x1b','[','3','8',';','2',';','5','1',';','5','1',';','5','1','m','─','\x1b','[','3','9','m','\x1b','[','3','8',';','2',';','5','1',';','5','1',';','5','1','m','─'],
   ['\x1b','[','3','9','m','\x1b','[','3','8',';','2',';','5','1',';','5','1',';','5','1','m','─','\x1b','[','3','9','m'],
   ['\x1b','[','3','8',';','2',';','5','1',';','5','1',';','5','1','m','─','\x1b','[','3','9','m','\x1b','[','3','8',';','2',';','5','1',';','5','1',';','5','1','m','─'],
   ['\x1b','[','3','9','m','\x1b','[','3','8',';','2',';','5','1',';','5','1',';','5','1','m','─','\x1b','[','3','9','m'],
   ['\x1b','[','3','8',';','2',';','5','1',';','5','1',';','5','1','m','─','\x1b','[','3','9','m','\x1b','[','3','8',';','2',';','5','1',';','5','1',';','5','1','m','─'],
   ['\x1b','[','3','9','m','\x1b','[','3','8',';','2',';','5','1',';','5','1',';','5','1','m','─','\x1b','[','3','9','m'],
   ['\x1b','[','3','8',';','2',';','5','1',';','5','1',';','5','1','m','─','\x1b','[','3','9','m','\x1b','[','3','8',';','2',';','5','1',';','5','1',';','5','1','m','─'],
   ['\x1b','[','3','9','m','\x1b','[','3','8',';','2',';','5','1',';','5','1',';','5','1','m','─','\x1b','[','3','9','m'],
   ['\x1b','[','3','8',';','2',';','5','1',';','5','1',';','5','1','m','─','\x1b','[','3','9','m','\x1b','[','3','8',';','2',';','5','1',';','5','1',';','5','1','m','─'],
   ['\x1b','[','3','9','m','\x1b','[','3','8',';','2',';','5','1',';','5','1',';','5','1','m','─','\x1b','[','3','9','m'],
   ['\x1b','[','3','8',';','2',';','5','1',';','5','1',';','5','1','m','─','\x1b','[','3','9','m','\x1b','[','3','8',';','2',';','5','1',';','5','1',';','5','1','m','─'],
   ['\x1b','[','3','9','m','\x1b','[','3','8',';','2',';','5','1',';','5','1',';','5','1','m','─','\x1b','[','3','9','m'],
   ['\x1b','[','3','8',';','2',';','5','1',';','5','1',';','5','1','m','─','\x1b','[','3','9','m','\x1b','[','3','8',';','2',';','5','1',';','5','1',';','5','1','m','─'],
   ['\x1b','[','3','9','m','\x1b','[','3','8',';','2',';','5','1',';','5','1',';','5','1','m','─','\x1b','[','3','9','m'],
   ['\x1b','[','3','8',';','2',';','5','1',';','5','1',';','5','1','m','─','\x1b','[','3','9','m','\x1b','[','3','8',';','2',';','5','1',';','5','1',';','5','1','m','─'],
   ['\x1b','[','3','9','m','\x1b','[','3','8',';','2',';','5','1',';','5','1',';','5','1','m','─','\x1b','[','3','9','m'],
   ['\x1b','[','3','8',';','2',';','5','1',';','5','1',';','5','1','m','─','\x1b','[','3','9','m','\x1b','[','3','8',';','2',';','5','1',';','5','1',';','5','1','m','─'],
   ['\x1b','[','3','9','m','\x1b','[','3','8',';','2',';','5','1',';','5','1',';','5','1','m','─','\x1b','[','3','9','m'],
   ['\x1b','[','3','8',';','2',';','5','1',';','5','1',';','5','1','m','─','\x1b','[','3','9','m','\x1b','[','3','8',';','2',';','5','1',';','5','1',';','5','1','m','─'],
   ['\x1b','[','3','9','m','\x1b','[','3','8',';','2',';','5','1',';','5','1',';','5','1','m','─','\x1b','[','3','9','m'],
   ['\x1b','[','3','8',';','2',';','5','1',';','5','1',';','5','1','m','─','\x1b','[','3','9','m','\x1b','[','3','8',';','2',';','5','1',';','5','1',';','5','1','m','─'],
   ['\x1b','[','3','9','m','\x1b','[','3','8',';','2',';','5','1',';','5','1',';','5','1','m','─','\x1b','[','3','9','m'],
   ['\x1b','[','3','8',';','2',';','5','1',';','5','1',';','5','1','m','─','\x1b','[','3','9','m','\x1b','[','3','8',';','2',';','5','1',';','5','1',';','5','1','m','─'],
   ['\x1b','[','3','9','m','\x1b','[','3','8',';','2',';','5','1',';','5','1',';','5','1','m','─','\x1b','[','3','9','m'],
   ['\x1b','[','3','8',';','2',';','5','1',';','5','1',';','5','1','m','─','\x1b','[','3','9','m','\x1b','[','3','8',';','2',';','5','1',';','5','1',';','5','1','m','─'],
   ['\x1b','[','3','9','m','\x1b','[','3','8',';','2',';','5','1',';','5','1',';','5','1','m','─','\x1b','[','3','9','m'],
   ['\x1b','[','3','8',';','2',';','5','1',';','5','1',';','5','1','m','─','\x1b','[','3','9','m','\x1b','[','3','8',';','2',';','5','1',';','5','1',';','5','1','m','─'],
   ['\x1b','[','3','9','m','\x1b','[','3','8',';','2',';','5','1',';','5','1',';','5','1','m','─','\x1b','[','3','9','m'],
   ['\x1b','[','3','8',';','2',';','5','1',';','5','1',';','5','1','m','─','\x1b','[','3','9','m','\x1b','[','3','8',';','2',';','5','1',';','5','1',';','5','1','m','─'],
   ['\x1b','[','3','9','m','\x1b','[','3','8',';','2',';','5','1',';','5','1',';','5','1','m','─','\x1b','[','3','9','m'],
   ['\x1b','[','3','8',';','2',';','5','1',';','5','1',';','5','1','m','─','\x1b','[','3','9','m','\x1b','[','3','8',';','2',';','5','1',';','5','1',';','5','1','m','─'],
   ['\x1b','[','3','9','m','\x1b','[','3','8',';','2',';','5','1',';','5','1',';','5','1','m','─','\x1b','[','3','9','m'],
   ['\x1b','[','3','8',';','2',';','5','1',';','5','1',';','5','1','m','─','\x1b','[','3','9','m','\x1b','[','3','8',';','2',';','5','1',';','5','1',';','5','1','m','─'],
   ['\x1b','[','3','9','m','\x1b','[','3','8',';','2',';','5','1',';','5','1',';','5','1','m','─','\x1b','[','3','9','m'],
   ['\x1b','[','3','8',';','2',';','5','1',';','5','1',';','5','1','m','─','\x1b','[','3','9','m','\x1b','[','3','8',';','2',';','5','1',';','5','1',';','5','1','m','─'],
   ['\x1b','[','3','9','m','\x1b','[','3','8',';','2',';','5','1',';','5','1',';','5','1','m','─','\x1b','[','3','9','m'],
   ['\x1b','[','3','8',';','2',';','5','1',';','5','1',';','5','1','m','─','\x1b','[','3','9','m','\x1b','[','3','8',';','2',';','5','1',';','5','1',';','5','1','m','─'],
   ['\x1b','[','3','9','m','\x1b','[','3','8',';','2',';','5','1',';','5','1',';','5','1','m','─','\x1b','[','3','9','m'],
   ['\x1b','[','3','8',';','2',';','5','1',';','5','1',';','5','1','m','─','\x1b','[','3','9','m','\x1b','[','3','8',';','2',';','5','1',';','5','1',';','5','1','m','─'],
   ['\x1b','[','3','9','m','\x1b','[','3','8',';','2',';','5','1',';','5','1',';','5','1','m','─','\x1b','[','3','9','m'],
   ['\x1b','[','3','8',';','2',';','5','1',';','5','1',';','5','1','m','─','\x1b','[','3','9','m','\x1b','[','3','8',';','2',';','5','1',';','5','1',';','5','1','m','─'],
   ['\x1b','[','3','9','m','\x1b','[','3','8',';','2',';','5','1',';','5','1',';','5','1','m','─','\x1b','[','3','9','m'],
   ['\x1b','[','3','8',';','2',';','5','1',';','5','1',';','5','1','m','─','\x1b','[','3','9','m','\x1b','[','3','8',';','2',';','5','1',';','5','1',';','5','1','m','─'],
   ['\x1b','[','3','9','m','\x1b','[','3','8',';','2',';','5','1',';','5','1',';','5','1','m','─','\x1b','[','3','9','m'],
   ['\x1b','[','3','8',';','2',';','5','1',';','5','1',';','5','1','m','─','\x1b','[','3','9','m','\x1b','[','3','8',';','2',';','5','1',';','5','1',';','5','1','m','─'],
   ['\x1b','[','3','9','m','\x1b','[','3','8',';','2',';','5','1',';','5','1',';','5','1','m','─','\x1b','[','3','9','m'],
   ['\x1b','[','3','8',';','2',';','5','1',';','5','1',';','5','1','m','─','\x1b','[','3','9','m','\x1b','[','3','8',';','2',';','5','1',';','5','1',';','5','1','m','─'],
   ['\x1b','[','3','9','m','\x1b','[','3','8',';','2',';','5','1',';','5','1',';','5','1','m','─','\x1b','[','3','9','m'],
   ['\x1b','[','3','8',';','2',';','5','1',';','5','1',';','5','1','m','─','\x1b','[','3','9','m','\x1b','[','3','8',';','2',';','5','1',';','5','1',';','5','1','m','─'],
   ['\x1b','[','3','9','m','\x1b','[','3','8',';','2',';','5','1',';','5','1',';','5','1','m','─','\x1b','[','3','9','m'],
   ['\x1b','[','3','8',';','2',';','5','1',';','5','1',';','5','1','m','─','\x1b','[','3','9','m','\x1b','[','3','8',';','2',';','5','1',';','5','1',';','5','1','m','─'],
   ['\x1b','[','3','9','m','\x1b','[','3','8',';','2',';','5','1',';','5','1',';','5','1','m','─','\x1b','[','3','9','m','\n']],
  [[' ',' ',' ','\x1b','[','1',';','3','8',';','2',';','2','5','5',';','2','5','5',';','2','5','5',';','4','8',';','2',';','0',';','0',';','0','m',' ','Ɐ',' '],
   ['\x1b','[','2','2',';','3','9',';','4','9','m',' ',' ',' ',' ',' ',' ','\x1b','[','3','1','m','Ɐ','\x1b','[','3','9','m',' ','\x1b','[','3','1',';','7','m','Ɐ'],
   ['\x1b','[','3','9',';','2','7','m',' ',' ',' ',' ',' ',' ',' ','\x1b','[','3','1','m',' ','0','3','\x1b','[','3','9','m',' ',' ',' '],
   ['\x1b','[','3','1',';','7','m',' ','1','e','\x1b','[','3','9',';','2','7','m',' ',' ',' ',' ','\x1b','[','9','0','m','<','\x1b','[','m','\x1b','[','1','m','C','\x1b','[','m'],
   ['\x1b','[','9','0','m','>','\x1b','[','m',' ','g','e','n','e','r','i','c',' ','c','o','n','t','r','o','l',' ','c','h','a','r',' ',' ',' ',' '],
   ['\x1b','[','9','0','m','C','C','s',' ','w','i','t','h','o','u','t',' ','u','n','i','q','u','e',' ','s','i','g','i','l',';','\x1b','[','m','\n']],
  [[' ',' ',' ',' ',' ',' ',' ',' ',' ',' ',' ','\x1b','[','3','1','m','Ɐ','\x1b','[','3','9','m','\x1b','[','3','1',';','4','8',';','5',';','1','6',';','4','m','C'],
   ['\x1b','[','3','9',';','4','9',';','2','4','m',' ','\x1b','[','3','1',';','7','m','Ɐ','\x1b','[','3','9',';','2','7','m'],
   ['\x1b','[','3','1',';','4','8',';','5',';','1','6',';','4','m','^'],
   ['\x1b','[','3','9',';','4','9',';','2','4','m',' ',' ',' ',' ',' ',' ',' ',' ',' ',' ',' ',' ',' ',' ',' ',' ',' ',' ',' ',' ',' ',' ',' '],
   ['\x1b','[','9','0',';','1','m','-','-','t','e','x','t',' ','-','-','m','a','r','k','e','r','=','\x1b','[','3','8',';','5',';','1','1','7','m','1'],
   ['\x1b','[','m',' ',' ',' '],
   ['\x1b','[','9','0','m','c','h','a','r',' ','f','r','o','m',' ','c','a','r','e','t',' ','n','o','t','a','t','i','o','n',':',' ','^','C',';','\n']],
  [[' ',' ',' ',' ',' ',' ',' ',' ',' ',' ','\x1b','[','3','1','m','Ɐ','\x1b','[','3','9','m','\x1b','[','3','1',';','4','8',';','5',';','1','6',';','4','m','0','3'],
   ['\x1b','[','3','9',';','4','9',';','2','4','m',' ','\x1b','[','3','1',';','7','m','Ɐ','\x1b','[','3','9',';','2','7','m'],
   ['\x1b','[','3','1',';','4','8',';','5',';','1','6',';','4','m','1','e'],
   ['\x1b','[','3','9',';','4','9',';','2','4','m',' ',' ',' ',' ',' ',' ',' ',' ',' ',' ',' ',' ',' ',' ',' ',' ',' ',' ',' ',' ',' ',' '],
   ['\x1b','[','9','0',';','1','m','-','-','t','e','x','t',' ','-','-','m','a','r','k','e','r','='],
   ['\x1b','[','3','8',';','2',';','2','4','8',';','1','8','4',';','1','3','7','m','2','\x1b','[','m',' ',' ',' ',' '],
   ['\x1b','[','9','0','m','r','e','a','l',' ','c','h','a','r',' ','h','e','x','a','d','e','c','i','m','a','l',' ','v','a','l','u','e',';','\n']],
  [['\n']],
  [[' ',' ',' ','\x1b','[','1',';','3','8',';','2',';','2','5','5',';','2','5','5',';','2','5','5',';','4','8',';','2',';','0',';','0',';','0','m',' ','Ø',' '],
   ['\x1b','[','2','2',';','3','9',';','4','9','m',' ',' ',' ',' ',' ',' ','\x1b','[','9','1','m','Ø','\x1b','[','3','9','m',' ','\x1b','[','9','1',';','7','m','Ø'],
   ['\x1b','[','3','9',';','2','7','m',' ',' ',' ',' ',' ',' ',' ','\x1b','[','9','1','m',' ','0','0','\x1b','[','3','9','m',' ',' ',' '],
   ['\x1b','[','9','1',';','7','m',' ','0','0','\x1b','[','3','9',';','2','7','m',' ',' ',' ',' ','\x1b','[','9','0','m','<','\x1b','[','m','\x1b','[','1','m','C','\x1b','[','m'],
   ['\x1b','[','9','0','m','>','\x1b','[','m',' ','n','u','l','l',' ','b','y','t','e',' ',' ',' ',' ',' ',' ',' ',' ','\x1b','[','9','0','m','N','U','L',' ',' ','"'],
   ['\x1b','[','1','m','\\','0','\x1b','[','m','\x1b','[','9','0','m','"','\x1b','[','m','\n']],
  [[' ',' ',' ','\x1b','[','1',';','3','8',';','2',';','2','5','5',';','2','5','5',';','2','5','5',';','4','8',';','2',';','0',';','0',';','0','m',' ','←',' '],
   ['\x1b','[','2','2',';','3','9',';','4','9','m',' ',' ',' ',' ',' ',' ','\x1b','[','3','1','m','←','\x1b','[','3','9','m',' ','\x1b','[','3','1',';','7','m','←'],
   ['\x1b','[','3','9',';','2','7','m',' ',' ',' ',' ',' ',' ',' ','\x1b','[','3','1','m',' ','0','8','\x1b','[','3','9','m',' ',' ',' '],
   ['\x1b','[','3','1',';','7','m',' ','0','8','\x1b','[','3','9',';','2','7','m',' ',' ',' ',' ','\x1b','[','9','0','m','<','\x1b','[','m','\x1b','[','1','m','C','\x1b','[','m'],
   ['\x1b','[','9','0','m','>','\x1b','[','m',' ','b','a','c','k','s','p','a','c','e',' ',' ',' ',' ',' ',' ',' ',' ','\x1b','[','9','0','m',' ','B','S',' ',' ','"'],
   ['\x1b','[','1','m','\\','b','\x1b','[','m','\x1b','[','9','0','m','"','\x1b','[','m','\n']],
  [[' ',' ',' ','\x1b','[','1',';','3','8',';','2',';','2','5','5',';','2','5','5',';','2','5','5',';','4','8',';','2',';','0',';','0',';','0','m',' ','→',' '],
   ['\x1b','[','2','2',';','3','9',';','4','9','m',' ',' ',' ',' ',' ',' ','\x1b','[','3','1','m','→','\x1b','[','3','9','m',' ','\x1b','[','3','1',';','7','m','→'],
   ['\x1b','[','3','9',';','2','7','m',' ',' ',' ',' ',' ',' ',' ','\x1b','[','3','1','m',' ','7','f','\x1b','[','3','9','m',' ',' ',' '],
   ['\x1b','[','3','1',';','7','m',' ','7','f','\x1b','[','3','9',';','2','7','m',' ',' ',' ',' ','\x1b','[','9','0','m','<','\x1b','[','m','\x1b','[','1','m','C','\x1b','[','m'],
   ['\x1b','[','9','0','m','>','\x1b','[','m',' ','d','e','l','e','t','e',' ',' ',' ',' ',' ',' ',' ',' ',' ',' ',' ','\x1b','[','9','0','m','D','E','L','\n']],
  [[' ',' ',' ','\x1b','[','1',';','3','8',';','2',';','2','5','5',';','2','5','5',';','2','5','5',';','4','8',';','2',';','0',';','0',';','0','m',' ','∌',' '],
   ['\x1b','[','2','2',';','3','9',';','4','9','m',' ',' ',' ',' ',' ',' ','\x1b','[','9','3','m','∌','\x1b','[','3','9','m',' ','\x1b','[','9','3',';','7','m','∌'],
   ['\x1b','[','3','9',';','2','7','m',' ',' ',' ',' ',' ',' ',' ','\x1b','[','9','3','m',' ','1','b','\x1b','[','3','9','m',' ',' ',' '],
   ['\x1b','[','9','3',';','7','m',' ','1','b','\x1b','[','3','9',';','2','7','m',' ',' ',' ',' ','\x1b','[','9','0','m','<','\x1b','[','m','\x1b','[','1','m','C','\x1b','[','m'],
   ['\x1b','[','9','0','m','>','\x1b','[','m',' ','e','s','c','a','p','e',' ',' ',' ',' ',' ',' ',' ',' ',' ',' ',' ','\x1b','[','9','0','m','E','S','C',' ',' ','"'],
   ['\x1b','[','1','m','\\','e','\x1b','[','m','\x1b','[','9','0','m','"',' ','(','s','h','e','l','l',')','\x1b','[','m','\n']],
  [[' ','\x1b','[','3','8',';','2',';','5','1',';','5','1',';','5','1','m','─','\x1b','[','3','9','m','\x1b','[','3','8',';','2',';','5','1',';','5','1',';','5','1','m','─'],
   ['\x1b','[','3','9','m','\x1b','[','3','8',';','2',';','5','1',';','5','1',';','5','1','m','─','\x1b','[','3','9','m'],
   ['\x1b','[','3','8',';','2',';','5','1',';','5','1',';','5','1','m','─','\x1b','[','3','9','m','\x1b','[','3','8',';','2',';','5','1',';','5','1',';','5','1','m','─'],
   ['\x1b','[','3','9','m','\x1b','[','3','8',';','2',';','5','1',';','5','1',';','5','1','m','─','\x1b','[','3','9','m'],
   ['\x1b','[','3','8',';','2',';','5','1',';','5','1',';','5','1','m','─','\x1b','[','3','9','m','\x1b','[','3','8',';','2',';','5','1',';','5','1',';','5','1','m','─'],
   ['\x1b','[','3','9','m','\x1b','[','3','8',';','2',';','5','1',';','5','1',';','5','1','m','─','\x1b','[','3','9','m'],
   ['\x1b','[','3','8',';','2',';','5','1',';','5','1',';','5','1','m','─','\x1b','[','3','9','m','\x1b','[','3','8',';','2',';','5','1',';','5','1',';','5','1','m','─'],
   ['\x1b','[','3','9','m','\x1b','[','3','8',';','2',';','5','1',';','5','1',';','5','1','m','─','\x1b','[','3','9','m'],
   ['\x1b','[','3','8',';','2',';','5','1',';','5','1',';','5','1','m','─','\x1b','[','3','9','m','\x1b','[','3','8',';','2',';','5','1',';','5','1',';','5','1','m','─'],
   ['\x1b','[','3','9','m','\x1b','[','3','8',';','2',';','5','1',';','5','1',';','5','1','m','─','\x1b','[','3','9','m'],
   ['\x1b','[','3','8',';','2',';','5','1',';','5','1',';','5','1','m','─','\x1b','[','3','9','m','\x1b','[','3','8',';','2',';','5','1',';','5','1',';','5','1','m','─'],
   ['\x1b','[','3','9','m','\x1b','[','3','8',';','2',';','5','1',';','5','1',';','5','1','m','─','\x1b','[','3','9','m'],
   ['\x1b','[','3','8',';','2',';','5','1',';','5','1',';','5','1','m','─','\x1b','[','3','9','m','\x1b','[','3','8',';','2',';','5','1',';','5','1',';','5','1','m','─'],
   ['\x1b','[','3','9','m','\x1b','[','3','8',';','2',';','5','1',';','5','1',';','5','1','m','─','\x1b','[','3','9','m'],
   ['\x1b','[','3','8',';','2',';','5','1',';','5','1',';','5','1','m','─','\x1b','[','3','9','m','\x1b','[','3','8',';','2',';','5','1',';','5','1',';','5','1','m','─'],
   ['\x1b','[','3','9','m','\x1b','[','3','8',';','2',';','5','1',';','5','1',';','5','1','m','─','\x1b','[','3','9','m'],
   ['\x1b','[','3','8',';','2',';','5','1',';','5','1',';','5','1','m','─','\x1b','[','3','9','m','\x1b','[','3','8',';','2',';','5','1',';','5','1',';','5','1','m','─'],
   ['\x1b','[','3','9','m','\x1b','[','3','8',';','2',';','5','1',';','5','1',';','5','1','m','─','\x1b','[','3','9','m'],
   ['\x1b','[','3','8',';','2',';','5','1',';','5','1',';','5','1','m','─','\x1b','[','3','9','m','\x1b','[','3','8',';','2',';','5','1',';','5','1',';','5','1','m','─'],
   ['\x1b','[','3','9','m','\x1b','[','3','8',';','2',';','5','1',';','5','1',';','5','1','m','─','\x1b','[','3','9','m'],
   ['\x1b','[','3','8',';','2',';','5','1',';','5','1',';','5','1','m','─','\x1b','[','3','9','m','\x1b','[','3','8',';','2',';','5','1',';','5','1',';','5','1','m','─'],
   ['\x1b','[','3','9','m','\x1b','[','3','8',';','2',';','5','1',';','5','1',';','5','1','m','─','\x1b','[','3','9','m'],
   ['\x1b','[','3','8',';','2',';','5','1',';','5','1',';','5','1','m','─','\x1b','[','3','9','m','\x1b','[','3','8',';','2',';','5','1',';','5','1',';','5','1','m','─'],
   ['\x1b','[','3','9','m','\x1b','[','3','8',';','2',';','5','1',';','5','1',';','5','1','m','─','\x1b','[','3','9','m'],
   ['\x1b','[','3','8',';','2',';','5','1',';','5','1',';','5','1','m','─','\x1b','[','3','9','m','\x1b','[','3','8',';','2',';','5','1',';','5','1',';','5','1','m','─'],
   ['\x1b','[','3','9','m','\x1b','[','3','8',';','2',';','5','1',';','5','1',';','5','1','m','─','\x1b','[','3','9','m'],
   ['\x1b','[','3','8',';','2',';','5','1',';','5','1',';','5','1','m','─','\x1b','[','3','9','m','\x1b','[','3','8',';','2',';','5','1',';','5','1',';','5','1','m','─'],
   ['\x1b','[','3','9','m','\x1b','[','3','8',';','2',';','5','1',';','5','1',';','5','1','m','─','\x1b','[','3','9','m'],
   ['\x1b','[','3','8',';','2',';','5','1',';','5','1',';','5','1','m','─','\x1b','[','3','9','m','\x1b','[','3','8',';','2',';','5','1',';','5','1',';','5','1','m','─'],
   ['\x1b','[','3','9','m','\x1b','[','3','8',';','2',';','5','1',';','5','1',';','5','1','m','─','\x1b','[','3','9','m'],
   ['\x1b','[','3','8',';','2',';','5','1',';','5','1',';','5','1','m','─','\x1b','[','3','9','m','\x1b','[','3','8',';','2',';','5','1',';','5','1',';','5','1','m','─'],
   ['\x1b','[','3','9','m','\x1b','[','3','8',';','2',';','5','1',';','5','1',';','5','1','m','─','\x1b','[','3','9','m'],
   ['\x1b','[','3','8',';','2',';','5','1',';','5','1',';','5','1','m','─','\x1b','[','3','9','m','\x1b','[','3','8',';','2',';','5','1',';','5','1',';','5','1','m','─'],
   ['\x1b','[','3','9','m','\x1b','[','3','8',';','2',';','5','1',';','5','1',';','5','1','m','─','\x1b','[','3','9','m'],
   ['\x1b','[','3','8',';','2',';','5','1',';','5','1',';','5','1','m','─','\x1b','[','3','9','m','\x1b','[','3','8',';','2',';','5','1',';','5','1',';','5','1','m','─'],
   ['\x1b','[','3','9','m','\x1b','[','3','8',';','2',';','5','1',';','5','1',';','5','1','m','─','\x1b','[','3','9','m'],
   ['\x1b','[','3','8',';','2',';','5','1',';','5','1',';','5','1','m','─','\x1b','[','3','9','m','\x1b','[','3','8',';','2',';','5','1',';','5','1',';','5','1','m','─'],
   ['\x1b','[','3','9','m','\x1b','[','3','8',';','2',';','5','1',';','5','1',';','5','1','m','─','\x1b','[','3','9','m'],
   ['\x1b','[','3','8',';','2',';','5','1',';','5','1',';','5','1','m','─','\x1b','[','3','9','m','\x1b','[','3','8',';','2',';','5','1',';','5','1',';','5','1','m','─'],
   ['\x1b','[','3','9','m','\x1b','[','3','8',';','2',';','5','1',';','5','1',';','5','1','m','─','\x1b','[','3','9','m'],
   ['\x1b','[','3','8',';','2',';','5','1',';','5','1',';','5','1','m','─','\x1b','[','3','9','m','\x1b','[','3','8',';','2',';','5','1',';','5','1',';','5','1','m','─'],
   ['\x1b','[','3','9','m','\x1b','[','3','8',';','2',';','5','1',';','5','1',';','5','1','m','─','\x1b','[','3','9','m'],
   ['\x1b','[','3','8',';','2',';','5','1',';','5','1',';','5','1','m','─','\x1b','[','3','9','m','\x1b','[','3','8',';','2',';','5','1',';','5','1',';','5','1','m','─'],
   ['\x1b','[','3','9','m','\x1b','[','3','8',';','2',';','5','1',';','5','1',';','5','1','m','─','\x1b','[','3','9','m'],
   ['\x1b','[','3','8',';','2',';','5','1',';','5','1',';','5','1','m','─','\x1b','[','3','9','m','\x1b','[','3','8',';','2',';','5','1',';','5','1',';','5','1','m','─'],
   ['\x1b','[','3','9','m','\x1b','[','3','8',';','2',';','5','1',';','5','1',';','5','1','m','─','\x1b','[','3','9','m'],
   ['\x1b','[','3','8',';','2',';','5','1',';','5','1',';','5','1','m','─','\x1b','[','3','9','m','\x1b','[','3','8',';','2',';','5','1',';','5','1',';','5','1','m','─'],
   ['\x1b','[','3','9','m','\x1b','[','3','8',';','2',';','5','1',';','5','1',';','5','1','m','─','\x1b','[','3','9','m'],
   ['\x1b','[','3','8',';','2',';','5','1',';','5','1',';','5','1','m','─','\x1b','[','3','9','m','\x1b','[','3','8',';','2',';','5','1',';','5','1',';','5','1','m','─'],
   ['\x1b','[','3','9','m','\x1b','[','3','8',';','2',';','5','1',';','5','1',';','5','1','m','─','\x1b','[','3','9','m'],
   ['\x1b','[','3','8',';','2',';','5','1',';','5','1',';','5','1','m','─','\x1b','[','3','9','m','\x1b','[','3','8',';','2',';','5','1',';','5','1',';','5','1','m','─'],
   ['\x1b','[','3','9','m','\x1b','[','3','8',';','2',';','5','1',';','5','1',';','5','1','m','─','\x1b','[','3','9','m'],
   ['\x1b','[','3','8',';','2',';','5','1',';','5','1',';','5','1','m','─','\x1b','[','3','9','m','\x1b','[','3','8',';','2',';','5','1',';','5','1',';','5','1','m','─'],
   ['\x1b','[','3','9','m','\x1b','[','3','8',';','2',';','5','1',';','5','1',';','5','1','m','─','\x1b','[','3','9','m'],
   ['\x1b','[','3','8',';','2',';','5','1',';','5','1',';','5','1','m','─','\x1b','[','3','9','m','\x1b','[','3','8',';','2',';','5','1',';','5','1',';','5','1','m','─'],
   ['\x1b','[','3','9','m','\x1b','[','3','8',';','2',';','5','1',';','5','1',';','5','1','m','─','\x1b','[','3','9','m'],
   ['\x1b','[','3','8',';','2',';','5','1',';','5','1',';','5','1','m','─','\x1b','[','3','9','m','\x1b','[','3','8',';','2',';','5','1',';','5','1',';','5','1','m','─'],
   ['\x1b','[','3','9','m','\x1b','[','3','8',';','2',';','5','1',';','5','1',';','5','1','m','─','\x1b','[','3','9','m','\n']],
  [[' ',' ','\x1b','[','3','8',';','2',';','1','0','2',';','1','0','2',';','1','0','2','m',' ','(','*',')',' ','\x1b','[','3','9','m',' ',' ',' ',' '],
   ['\x1b','[','3','8',';','5',';','1','0','2','m','!','\x1b','[','3','9','m','\x1b','[','3','8',';','5',';','1','0','2','m','"','\x1b','[','3','9','m',' '],
   ['\x1b','[','4','7',';','3','0','m','1','\x1b','[','4','9',';','3','9','m','\x1b','[','4','7',';','3','0','m','2','\x1b','[','4','9',';','3','9','m',' ',' ',' '],
   ['\x1b','[','3','8',';','5',';','1','0','2','m',' ','2','1','\x1b','[','3','9','m','\x1b','[','3','8',';','5',';','1','0','2','m',' ','2','2','\x1b','[','3','9','m'],
   ['\x1b','[','4','7',';','3','0','m',' ','3','1','\x1b','[','4','9',';','3','9','m','\x1b','[','4','7',';','3','0','m',' ','3','2'],
   ['\x1b','[','4','9',';','3','9','m',' ',' ',' ',' ','\x1b','[','9','0','m','<','\x1b','[','m','\x1b','[','1','m','P','\x1b','[','m','\x1b','[','9','0','m','>'],
   ['\x1b','[','m',' ','A','S','C','I','I',' ','p','r','i','n','t','a','b','l','e',' ','c','h','a','r','\n']],
  [[' ',' ',' ',' ',' ',' ',' ',' ',' ',' ',' ','\x1b','[','3','8',';','5',';','1','0','2','m','A','\x1b','[','3','9','m','\x1b','[','3','8',';','5',';','1','0','2','m','B'],
   ['\x1b','[','3','9','m',' ','\x1b','[','4','7',';','3','0','m','}','\x1b','[','4','9',';','3','9','m','\x1b','[','4','7',';','3','0','m','~'],
   ['\x1b','[','4','9',';','3','9','m',' ',' ',' ','\x1b','[','3','8',';','5',';','1','0','2','m',' ','4','1','\x1b','[','3','9','m'],
   ['\x1b','[','3','8',';','5',';','1','0','2','m',' ','4','2','\x1b','[','3','9','m','\x1b','[','4','7',';','3','0','m',' ','7','d','\x1b','[','4','9',';','3','9','m'],
   ['\x1b','[','4','7',';','3','0','m',' ','7','e','\x1b','[','4','9',';','3','9','m',' ',' ',' ',' ','\n']],
  [[' ','\x1b','[','3','8',';','2',';','5','1',';','5','1',';','5','1','m','─','\x1b','[','3','9','m','\x1b','[','3','8',';','2',';','5','1',';','5','1',';','5','1','m','─'],
   ['\x1b','[','3','9','m','\x1b','[','3','8',';','2',';','5','1',';','5','1',';','5','1','m','─','\x1b','[','3','9','m'],
   ['\x1b','[','3','8',';','2',';','5','1',';','5','1',';','5','1','m','─','\x1b','[','3','9','m','\x1b','[','3','8',';','2',';','5','1',';','5','1',';','5','1','m','─'],
   ['\x1b','[','3','9','m','\x1b','[','3','8',';','2',';','5','1',';','5','1',';','5','1','m','─','\x1b','[','3','9','m'],
   ['\x1b','[','3','8',';','2',';','5','1',';','5','1',';','5','1','m','─','\x1b','[','3','9','m','\x1b','[','3','8',';','2',';','5','1',';','5','1',';','5','1','m','─'],
   ['\x1b','[','3','9','m','\x1b','[','3','8',';','2',';','5','1',';','5','1',';','5','1','m','─','\x1b','[','3','9','m'],
   ['\x1b','[','3','8',';','2',';','5','1',';','5','1',';','5','1','m','─','\x1b','[','3','9','m','\x1b','[','3','8',';','2',';','5','1',';','5','1',';','5','1','m','─'],
   ['\x1b','[','3','9','m','\x1b','[','3','8',';','2',';','5','1',';','5','1',';','5','1','m','─','\x1b','[','3','9','m'],
   ['\x1b','[','3','8',';','2',';','5','1',';','5','1',';','5','1','m','─','\x1b','[','3','9','m','\x1b','[','3','8',';','2',';','5','1',';','5','1',';','5','1','m','─'],
   ['\x1b','[','3','9','m','\x1b','[','3','8',';','2',';','5','1',';','5','1',';','5','1','m','─','\x1b','[','3','9','m'],
   ['\x1b','[','3','8',';','2',';','5','1',';','5','1',';','5','1','m','─','\x1b','[','3','9','m','\x1b','[','3','8',';','2',';','5','1',';','5','1',';','5','1','m','─'],
   ['\x1b','[','3','9','m','\x1b','[','3','8',';','2',';','5','1',';','5','1',';','5','1','m','─','\x1b','[','3','9','m'],
   ['\x1b','[','3','8',';','2',';','5','1',';','5','1',';','5','1','m','─','\x1b','[','3','9','m','\x1b','[','3','8',';','2',';','5','1',';','5','1',';','5','1','m','─'],
   ['\x1b','[','3','9','m','\x1b','[','3','8',';','2',';','5','1',';','5','1',';','5','1','m','─','\x1b','[','3','9','m'],
   ['\x1b','[','3','8',';','2',';','5','1',';','5','1',';','5','1','m','─','\x1b','[','3','9','m','\x1b','[','3','8',';','2',';','5','1',';','5','1',';','5','1','m','─'],
   ['\x1b','[','3','9','m','\x1b','[','3','8',';','2',';','5','1',';','5','1',';','5','1','m','─','\x1b','[','3','9','m'],
   ['\x1b','[','3','8',';','2',';','5','1',';','5','1',';','5','1','m','─','\x1b','[','3','9','m','\x1b','[','3','8',';','2',';','5','1',';','5','1',';','5','1','m','─'],
   ['\x1b','[','3','9','m','\x1b','[','3','8',';','2',';','5','1',';','5','1',';','5','1','m','─','\x1b','[','3','9','m'],
   ['\x1b','[','3','8',';','2',';','5','1',';','5','1',';','5','1','m','─','\x1b','[','3','9','m','\x1b','[','3','8',';','2',';','5','1',';','5','1',';','5','1','m','─'],
   ['\x1b','[','3','9','m','\x1b','[','3','8',';','2',';','5','1',';','5','1',';','5','1','m','─','\x1b','[','3','9','m'],
   ['\x1b','[','3','8',';','2',';','5','1',';','5','1',';','5','1','m','─','\x1b','[','3','9','m','\x1b','[','3','8',';','2',';','5','1',';','5','1',';','5','1','m','─'],
   ['\x1b','[','3','9','m','\x1b','[','3','8',';','2',';','5','1',';','5','1',';','5','1','m','─','\x1b','[','3','9','m'],
   ['\x1b','[','3','8',';','2',';','5','1',';','5','1',';','5','1','m','─','\x1b','[','3','9','m','\x1b','[','3','8',';','2',';','5','1',';','5','1',';','5','1','m','─'],
   ['\x1b','[','3','9','m','\x1b','[','3','8',';','2',';','5','1',';','5','1',';','5','1','m','─','\x1b','[','3','9','m'],
   ['\x1b','[','3','8',';','2',';','5','1',';','5','1',';','5','1','m','─','\x1b','[','3','9','m','\x1b','[','3','8',';','2',';','5','1',';','5','1',';','5','1','m','─'],
   ['\x1b','[','3','9','m','\x1b','[','3','8',';','2',';','5','1',';','5','1',';','5','1','m','─','\x1b','[','3','9','m'],
   ['\x1b','[','3','8',';','2',';','5','1',';','5','1',';','5','1','m','─','\x1b','[','3','9','m','\x1b','[','3','8',';','2',';','5','1',';','5','1',';','5','1','m','─'],
   ['\x1b','[','3','9','m','\x1b','[','3','8',';','2',';','5','1',';','5','1',';','5','1','m','─','\x1b','[','3','9','m'],
   ['\x1b','[','3','8',';','2',';','5','1',';','5','1',';','5','1','m','─','\x1b','[','3','9','m','\x1b','[','3','8',';','2',';','5','1',';','5','1',';','5','1','m','─'],
   ['\x1b','[','3','9','m','\x1b','[','3','8',';','2',';','5','1',';','5','1',';','5','1','m','─','\x1b','[','3','9','m'],
   ['\x1b','[','3','8',';','2',';','5','1',';','5','1',';','5','1','m','─','\x1b','[','3','9','m','\x1b','[','3','8',';','2',';','5','1',';','5','1',';','5','1','m','─'],
   ['\x1b','[','3','9','m','\x1b','[','3','8',';','2',';','5','1',';','5','1',';','5','1','m','─','\x1b','[','3','9','m'],
   ['\x1b','[','3','8',';','2',';','5','1',';','5','1',';','5','1','m','─','\x1b','[','3','9','m','\x1b','[','3','8',';','2',';','5','1',';','5','1',';','5','1','m','─'],
   ['\x1b','[','3','9','m','\x1b','[','3','8',';','2',';','5','1',';','5','1',';','5','1','m','─','\x1b','[','3','9','m'],
   ['\x1b','[','3','8',';','2',';','5','1',';','5','1',';','5','1','m','─','\x1b','[','3','9','m','\x1b','[','3','8',';','2',';','5','1',';','5','1',';','5','1','m','─'],
   ['\x1b','[','3','9','m','\x1b','[','3','8',';','2',';','5','1',';','5','1',';','5','1','m','─','\x1b','[','3','9','m'],
   ['\x1b','[','3','8',';','2',';','5','1',';','5','1',';','5','1','m','─','\x1b','[','3','9','m','\x1b','[','3','8',';','2',';','5','1',';','5','1',';','5','1','m','─'],
   ['\x1b','[','3','9','m','\x1b','[','3','8',';','2',';','5','1',';','5','1',';','5','1','m','─','\x1b','[','3','9','m'],
   ['\x1b','[','3','8',';','2',';','5','1',';','5','1',';','5','1','m','─','\x1b','[','3','9','m','\x1b','[','3','8',';','2',';','5','1',';','5','1',';','5','1','m','─'],
   ['\x1b','[','3','9','m','\x1b','[','3','8',';','2',';','5','1',';','5','1',';','5','1','m','─','\x1b','[','3','9','m'],
   ['\x1b','[','3','8',';','2',';','5','1',';','5','1',';','5','1','m','─','\x1b','[','3','9','m','\x1b','[','3','8',';','2',';','5','1',';','5','1',';','5','1','m','─'],
   ['\x1b','[','3','9','m','\x1b','[','3','8',';','2',';','5','1',';','5','1',';','5','1','m','─','\x1b','[','3','9','m'],
   ['\x1b','[','3','8',';','2',';','5','1',';','5','1',';','5','1','m','─','\x1b','[','3','9','m','\x1b','[','3','8',';','2',';','5','1',';','5','1',';','5','1','m','─'],
   ['\x1b','[','3','9','m','\x1b','[','3','8',';','2',';','5','1',';','5','1',';','5','1','m','─','\x1b','[','3','9','m'],
   ['\x1b','[','3','8',';','2',';','5','1',';','5','1',';','5','1','m','─','\x1b','[','3','9','m','\x1b','[','3','8',';','2',';','5','1',';','5','1',';','5','1','m','─'],
   ['\x1b','[','3','9','m','\x1b','[','3','8',';','2',';','5','1',';','5','1',';','5','1','m','─','\x1b','[','3','9','m'],
   ['\x1b','[','3','8',';','2',';','5','1',';','5','1',';','5','1','m','─','\x1b','[','3','9','m','\x1b','[','3','8',';','2',';','5','1',';','5','1',';','5','1','m','─'],
   ['\x1b','[','3','9','m','\x1b','[','3','8',';','2',';','5','1',';','5','1',';','5','1','m','─','\x1b','[','3','9','m'],
   ['\x1b','[','3','8',';','2',';','5','1',';','5','1',';','5','1','m','─','\x1b','[','3','9','m','\x1b','[','3','8',';','2',';','5','1',';','5','1',';','5','1','m','─'],
   ['\x1b','[','3','9','m','\x1b','[','3','8',';','2',';','5','1',';','5','1',';','5','1','m','─','\x1b','[','3','9','m'],
   ['\x1b','[','3','8',';','2',';','5','1',';','5','1',';','5','1','m','─','\x1b','[','3','9','m','\x1b','[','3','8',';','2',';','5','1',';','5','1',';','5','1','m','─'],
   ['\x1b','[','3','9','m','\x1b','[','3','8',';','2',';','5','1',';','5','1',';','5','1','m','─','\x1b','[','3','9','m'],
   ['\x1b','[','3','8',';','2',';','5','1',';','5','1',';','5','1','m','─','\x1b','[','3','9','m','\x1b','[','3','8',';','2',';','5','1',';','5','1',';','5','1','m','─'],
   ['\x1b','[','3','9','m','\x1b','[','3','8',';','2',';','5','1',';','5','1',';','5','1','m','─','\x1b','[','3','9','m'],
   ['\x1b','[','3','8',';','2',';','5','1',';','5','1',';','5','1','m','─','\x1b','[','3','9','m','\x1b','[','3','8',';','2',';','5','1',';','5','1',';','5','1','m','─'],
   ['\x1b','[','3','9','m','\x1b','[','3','8',';','2',';','5','1',';','5','1',';','5','1','m','─','\x1b','[','3','9','m'],
   ['\x1b','[','3','8',';','2',';','5','1',';','5','1',';','5','1','m','─','\x1b','[','3','9','m','\x1b','[','3','8',';','2',';','5','1',';','5','1',';','5','1','m','─'],
   ['\x1b','[','3','9','m','\x1b','[','3','8',';','2',';','5','1',';','5','1',';','5','1','m','─','\x1b','[','3','9','m','\n']],
  [[' ',' ',' ','\x1b','[','1',';','3','8',';','2',';','2','5','5',';','2','5','5',';','2','5','5',';','4','8',';','2',';','0',';','0',';','0','m',' ','Ḇ',' '],
   ['\x1b','[','2','2',';','3','9',';','4','9','m',' ',' ',' ',' ',' ','\x1b','[','3','5','m','Ḇ','\x1b','[','3','9','m','\x1b','[','3','5','m','Ḇ','\x1b','[','3','9','m',' '],
   ['\x1b','[','3','5',';','7','m','Ḇ','\x1b','[','3','9',';','2','7','m','\x1b','[','3','5',';','7','m','Ḇ','\x1b','[','3','9',';','2','7','m',' ',' ',' '],
   ['\x1b','[','3','5','m',' ','c','0','\x1b','[','3','9','m','\x1b','[','3','5','m',' ','f','f','\x1b','[','3','9','m','\x1b','[','3','5',';','7','m',' ','e','e'],
   ['\x1b','[','3','9',';','2','7','m','\x1b','[','3','5',';','7','m',' ','d','a','\x1b','[','3','9',';','2','7','m',' ',' ',' ',' ','\x1b','[','9','0','m','<','\x1b','[','m'],
   ['\x1b','[','1','m','I','\x1b','[','m','\x1b','[','9','0','m','>','\x1b','[','m',' ','b','i','n','a','r','y',' ','d','a','t','a',' ',' ','\x1b','[','9','0',';','1','m','-','t'],
   ['\x1b','[','m',' ',' ',' ',' ',' '],
   ['\x1b','[','9','0','m','s','e','q','u','e','n','c','e','s',' ','t','h','a','t',' ','c','a','n','n','o','t',' ','b','e',' ','c','l','a','-','\x1b','[','m','\n']],
  [[' ',' ',' ','\x1b','[','1',';','3','8',';','2',';','2','5','5',';','2','5','5',';','2','5','5',';','4','8',';','2',';','0',';','0',';','0','m',' ','▯',' '],
   ['\x1b','[','2','2',';','3','9',';','4','9','m',' ',' ',' ',' ',' ','\x1b','[','3','5','m','▯','\x1b','[','3','9','m','\x1b','[','3','5','m','▯','\x1b','[','3','9','m',' '],
   ['\x1b','[','3','5',';','7','m','▯','\x1b','[','3','9',';','2','7','m','\x1b','[','3','5',';','7','m','▯','\x1b','[','3','9',';','2','7','m',' ',' ',' '],
   ['\x1b','[','3','5','m',' ','e','e','\x1b','[','3','9','m','\x1b','[','3','5','m',' ','b','0','\x1b','[','3','9','m','\x1b','[','3','5',';','7','m',' ','c','0'],
   ['\x1b','[','3','9',';','2','7','m','\x1b','[','3','5',';','7','m',' ','c','c'],
   ['\x1b','[','3','9',';','2','7','m',' ',' ',' ',' ',' ',' ',' ',' ',' ',' ',' ',' ',' ',' ',' ',' ',' ',' ',' ',' ',' ','\x1b','[','9','0',';','1','m','-','b'],
   ['\x1b','[','m',' ',' ',' ',' ',' '],
   ['\x1b','[','9','0','m','s','s','i','f','i','e','d',' ','a','s',' ','a','n','y',' ','o','f',' ','t','h','e',' ','o','t','h','e','r','s',';','\x1b','[','m','\n']],
  [[' ','\x1b','[','3','8',';','2',';','5','1',';','5','1',';','5','1','m','─','\x1b','[','3','9','m','\x1b','[','3','8',';','2',';','5','1',';','5','1',';','5','1','m','─'],
   ['\x1b','[','3','9','m','\x1b','[','3','8',';','2',';','5','1',';','5','1',';','5','1','m','─','\x1b','[','3','9','m'],
   ['\x1b','[','3','8',';','2',';','5','1',';','5','1',';','5','1','m','─','\x1b','[','3','9','m','\x1b','[','3','8',';','2',';','5','1',';','5','1',';','5','1','m','─'],
   ['\x1b','[','3','9','m','\x1b','[','3','8',';','2',';','5','1',';','5','1',';','5','1','m','─','\x1b','[','3','9','m'],
   ['\x1b','[','3','8',';','2',';','5','1',';','5','1',';','5','1','m','─','\x1b','[','3','9','m','\x1b','[','3','8',';','2',';','5','1',';','5','1',';','5','1','m','─'],
   ['\x1b','[','3','9','m','\x1b','[','3','8',';','2',';','5','1',';','5','1',';','5','1','m','─','\x1b','[','3','9','m'],
   ['\x1b','[','3','8',';','2',';','5','1',';','5','1',';','5','1','m','─','\x1b','[','3','9','m','\x1b','[','3','8',';','2',';','5','1',';','5','1',';','5','1','m','─'],
   ['\x1b','[','3','9','m','\x1b','[','3','8',';','2',';','5','1',';','5','1',';','5','1','m','─','\x1b','[','3','9','m'],
   ['\x1b','[','3','8',';','2',';','5','1',';','5','1',';','5','1','m','─','\x1b','[','3','9','m','\x1b','[','3','8',';','2',';','5','1',';','5','1',';','5','1','m','─'],
   ['\x1b','[','3','9','m','\x1b','[','3','8',';','2',';','5','1',';','5','1',';','5','1','m','─','\x1b','[','3','9','m'],
   ['\x1b','[','3','8',';','2',';','5','1',';','5','1',';','5','1','m','─','\x1b','[','3','9','m','\x1b','[','3','8',';','2',';','5','1',';','5','1',';','5','1','m','─'],
   ['\x1b','[','3','9','m','\x1b','[','3','8',';','2',';','5','1',';','5','1',';','5','1','m','─','\x1b','[','3','9','m'],
   ['\x1b','[','3','8',';','2',';','5','1',';','5','1',';','5','1','m','─','\x1b','[','3','9','m','\x1b','[','3','8',';','2',';','5','1',';','5','1',';','5','1','m','─'],
   ['\x1b','[','3','9','m','\x1b','[','3','8',';','2',';','5','1',';','5','1',';','5','1','m','─','\x1b','[','3','9','m'],
   ['\x1b','[','3','8',';','2',';','5','1',';','5','1',';','5','1','m','─','\x1b','[','3','9','m','\x1b','[','3','8',';','2',';','5','1',';','5','1',';','5','1','m','─'],
   ['\x1b','[','3','9','m','\x1b','[','3','8',';','2',';','5','1',';','5','1',';','5','1','m','─','\x1b','[','3','9','m'],
   ['\x1b','[','3','8',';','2',';','5','1',';','5','1',';','5','1','m','─','\x1b','[','3','9','m','\x1b','[','3','8',';','2',';','5','1',';','5','1',';','5','1','m','─'],
   ['\x1b','[','3','9','m','\x1b','[','3','8',';','2',';','5','1',';','5','1',';','5','1','m','─','\x1b','[','3','9','m'],
   ['\x1b','[','3','8',';','2',';','5','1',';','5','1',';','5','1','m','─','\x1b','[','3','9','m','\x1b','[','3','8',';','2',';','5','1',';','5','1',';','5','1','m','─'],
   ['\x1b','[','3','9','m','\x1b','[','3','8',';','2',';','5','1',';','5','1',';','5','1','m','─','\x1b','[','3','9','m'],
   ['\x1b','[','3','8',';','2',';','5','1',';','5','1',';','5','1','m','─','\x1b','[','3','9','m','\x1b','[','3','8',';','2',';','5','1',';','5','1',';','5','1','m','─'],
   ['\x1b','[','3','9','m','\x1b','[','3','8',';','2',';','5','1',';','5','1',';','5','1','m','─','\x1b','[','3','9','m'],
   ['\x1b','[','3','8',';','2',';','5','1',';','5','1',';','5','1','m','─','\x1b','[','3','9','m','\x1b','[','3','8',';','2',';','5','1',';','5','1',';','5','1','m','─'],
   ['\x1b','[','3','9','m','\x1b','[','3','8',';','2',';','5','1',';','5','1',';','5','1','m','─','\x1b','[','3','9','m'],
   ['\x1b','[','3','8',';','2',';','5','1',';','5','1',';','5','1','m','─','\x1b','[','3','9','m','\x1b','[','3','8',';','2',';','5','1',';','5','1',';','5','1','m','─'],
   ['\x1b','[','3','9','m','\x1b','[','3','8',';','2',';','5','1',';','5','1',';','5','1','m','─','\x1b','[','3','9','m'],
   ['\x1b','[','3','8',';','2',';','5','1',';','5','1',';','5','1','m','─','\x1b','[','3','9','m','\x1b','[','3','8',';','2',';','5','1',';','5','1',';','5','1','m','─'],
   ['\x1b','[','3','9','m','\x1b','[','3','8',';','2',';','5','1',';','5','1',';','5','1','m','─','\x1b','[','3','9','m'],
   ['\x1b','[','3','8',';','2',';','5','1',';','5','1',';','5','1','m','─','\x1b','[','3','9','m','\x1b','[','3','8',';','2',';','5','1',';','5','1',';','5','1','m','─'],
   ['\x1b','[','3','9','m','\x1b','[','3','8',';','2',';','5','1',';','5','1',';','5','1','m','─','\x1b','[','3','9','m'],
   ['\x1b','[','3','8',';','2',';','5','1',';','5','1',';','5','1','m','─','\x1b','[','3','9','m','\x1b','[','3','8',';','2',';','5','1',';','5','1',';','5','1','m','─'],
   ['\x1b','[','3','9','m','\x1b','[','3','8',';','2',';','5','1',';','5','1',';','5','1','m','─','\x1b','[','3','9','m'],
   ['\x1b','[','3','8',';','2',';','5','1',';','5','1',';','5','1','m','─','\x1b','[','3','9','m','\x1b','[','3','8',';','2',';','5','1',';','5','1',';','5','1','m','─'],
   ['\x1b','[','3','9','m','\x1b','[','3','8',';','2',';','5','1',';','5','1',';','5','1','m','─','\x1b','[','3','9','m'],
   ['\x1b','[','3','8',';','2',';','5','1',';','5','1',';','5','1','m','─','\x1b','[','3','9','m','\x1b','[','3','8',';','2',';','5','1',';','5','1',';','5','1','m','─'],
   ['\x1b','[','3','9','m','\x1b','[','3','8',';','2',';','5','1',';','5','1',';','5','1','m','─','\x1b','[','3','9','m'],
   ['\x1b','[','3','8',';','2',';','5','1',';','5','1',';','5','1','m','─','\x1b','[','3','9','m','\x1b','[','3','8',';','2',';','5','1',';','5','1',';','5','1','m','─'],
   ['\x1b','[','3','9','m','\x1b','[','3','8',';','2',';','5','1',';','5','1',';','5','1','m','─','\x1b','[','3','9','m'],
   ['\x1b','[','3','8',';','2',';','5','1',';','5','1',';','5','1','m','─','\x1b','[','3','9','m','\x1b','[','3','8',';','2',';','5','1',';','5','1',';','5','1','m','─'],
   ['\x1b','[','3','9','m','\x1b','[','3','8',';','2',';','5','1',';','5','1',';','5','1','m','─','\x1b','[','3','9','m'],
   ['\x1b','[','3','8',';','2',';','5','1',';','5','1',';','5','1','m','─','\x1b','[','3','9','m','\x1b','[','3','8',';','2',';','5','1',';','5','1',';','5','1','m','─'],
   ['\x1b','[','3','9','m','\x1b','[','3','8',';','2',';','5','1',';','5','1',';','5','1','m','─','\x1b','[','3','9','m'],
   ['\x1b','[','3','8',';','2',';','5','1',';','5','1',';','5','1','m','─','\x1b','[','3','9','m','\x1b','[','3','8',';','2',';','5','1',';','5','1',';','5','1','m','─'],
   ['\x1b','[','3','9','m','\x1b','[','3','8',';','2',';','5','1',';','5','1',';','5','1','m','─','\x1b','[','3','9','m'],
   ['\x1b','[','3','8',';','2',';','5','1',';','5','1',';','5','1','m','─','\x1b','[','3','9','m','\x1b','[','3','8',';','2',';','5','1',';','5','1',';','5','1','m','─'],
   ['\x1b','[','3','9','m','\x1b','[','3','8',';','2',';','5','1',';','5','1',';','5','1','m','─','\x1b','[','3','9','m'],
   ['\x1b','[','3','8',';','2',';','5','1',';','5','1',';','5','1','m','─','\x1b','[','3','9','m','\x1b','[','3','8',';','2',';','5','1',';','5','1',';','5','1','m','─'],
   ['\x1b','[','3','9','m','\x1b','[','3','8',';','2',';','5','1',';','5','1',';','5','1','m','─','\x1b','[','3','9','m'],
   ['\x1b','[','3','8',';','2',';','5','1',';','5','1',';','5','1','m','─','\x1b','[','3','9','m','\x1b','[','3','8',';','2',';','5','1',';','5','1',';','5','1','m','─'],
   ['\x1b','[','3','9','m','\x1b','[','3','8',';','2',';','5','1',';','5','1',';','5','1','m','─','\x1b','[','3','9','m'],
   ['\x1b','[','3','8',';','2',';','5','1',';','5','1',';','5','1','m','─','\x1b','[','3','9','m','\x1b','[','3','8',';','2',';','5','1',';','5','1',';','5','1','m','─'],
   ['\x1b','[','3','9','m','\x1b','[','3','8',';','2',';','5','1',';','5','1',';','5','1','m','─','\x1b','[','3','9','m'],
   ['\x1b','[','3','8',';','2',';','5','1',';','5','1',';','5','1','m','─','\x1b','[','3','9','m','\x1b','[','3','8',';','2',';','5','1',';','5','1',';','5','1','m','─'],
   ['\x1b','[','3','9','m','\x1b','[','3','8',';','2',';','5','1',';','5','1',';','5','1','m','─','\x1b','[','3','9','m'],
   ['\x1b','[','3','8',';','2',';','5','1',';','5','1',';','5','1','m','─','\x1b','[','3','9','m','\x1b','[','3','8',';','2',';','5','1',';','5','1',';','5','1','m','─'],
   ['\x1b','[','3','9','m','\x1b','[','3','8',';','2',';','5','1',';','5','1',';','5','1','m','─','\x1b','[','3','9','m'],
   ['\x1b','[','3','8',';','2',';','5','1',';','5','1',';','5','1','m','─','\x1b','[','3','9','m','\x1b','[','3','8',';','2',';','5','1',';','5','1',';','5','1','m','─'],
   ['\x1b','[','3','9','m','\x1b','[','3','8',';','2',';','5','1',';','5','1',';','5','1','m','─','\x1b','[','3','9','m','\n']],
  [[' ',' ','\x1b','[','3','8',';','2',';','1','0','2',';','1','0','2',';','1','0','2','m',' ','(','*',')',' ','\x1b','[','3','9','m',' ',' ',' ',' ',' ',' '],
   ['\x1b','[','9','4','m','🐍','\x1b','[','3','9','m',' ',' ',' ',' ','\x1b','[','9','4','m',' ','f','0',' ','9','f',' ','9','0',' ','8','d'],
   ['\x1b','[','3','9','m',' ',' ',' ',' ','\x1b','[','9','0','m','<','\x1b','[','m','\x1b','[','1','m','U','\x1b','[','m','\x1b','[','9','0','m','>'],
   ['\x1b','[','m',' ','U','T','F','-','8',' ','s','e','q','u','e','n','c','e',' ',' ','\x1b','[','9','0',';','1','m','-','-','t','e','x','t','\x1b','[','m'],
   ['\x1b','[','9','0','m',' ',' ',' ',' ',' ',' ',' ',' ','d','e','c','o','d','e','d',' ','b','y',' ','d','e','f','a','u','l','t',';','\x1b','[','m','\n']],
  [[' ',' ',' ','\x1b','[','1',';','3','8',';','2',';','2','5','5',';','2','5','5',';','2','5','5',';','4','8',';','2',';','0',';','0',';','0','m',' ','▯',' '],
   ['\x1b','[','2','2',';','3','9',';','4','9','m',' ',' ',' ',' ',' ','\x1b','[','9','4','m','▯','\x1b','[','3','9','m','\x1b','[','9','4','m','▯','\x1b','[','3','9','m',' '],
   ['\x1b','[','9','4',';','7','m','▯','\x1b','[','3','9',';','2','7','m','\x1b','[','9','4',';','7','m','▯','\x1b','[','3','9',';','2','7','m',' ',' ',' '],
   ['\x1b','[','9','4','m',' ','d','1','\x1b','[','3','9','m','\x1b','[','9','4','m',' ','8','5','\x1b','[','3','9','m','\x1b','[','9','4',';','7','m',' ','d','0'],
   ['\x1b','[','3','9',';','2','7','m','\x1b','[','9','4',';','7','m',' ','b','9'],
   ['\x1b','[','3','9',';','2','7','m',' ',' ',' ',' ',' ',' ',' ',' ',' ',' ',' ',' ',' ',' ',' ',' ',' ',' ',' ',' ',' ',' ',' ',' '],
   ['\x1b','[','9','0',';','1','m','-','-','b','i','n','a','r','y','\x1b','[','m','\n']],
  [[' ',' ',' ','\x1b','[','1',';','3','8',';','2',';','2','5','5',';','2','5','5',';','2','5','5',';','4','8',';','2',';','0',';','0',';','0','m',' ','_',' '],
   ['\x1b','[','2','2',';','3','9',';','4','9','m',' ',' ',' ',' ','\x1b','[','9','4','m','_','ы','\x1b','[','3','9','m',' ','\x1b','[','9','4',';','7','m','_','_','世'],
   ['\x1b','[','3','9',';','2','7','m',' ',' ','\x1b','[','9','4','m',' ','d','1',' ','8','b','\x1b','[','3','9','m','\x1b','[','9','4',';','7','m',' ','e','4',' ','b'],
   ['\x1b','[','3','9',';','2','7','m','‥',' ',' ',' ',' ',' ',' ',' ',' ',' ',' ',' ',' ',' ',' ',' ',' ',' ',' ',' ',' ',' ',' ',' ',' '],
   ['\x1b','[','9','0',';','1','m','-','-','b','i','n','a','r','y','\x1b','[','m',' ','\x1b','[','9','0',';','1','m','-','-','d','e','c','o','d','e','\x1b','[','m','\n']],
  [[' ','\x1b','[','3','8',';','2',';','5','1',';','5','1',';','5','1','m','─','\x1b','[','3','9','m','\x1b','[','3','8',';','2',';','5','1',';','5','1',';','5','1','m','─'],
   ['\x1b','[','3','9','m','\x1b','[','3','8',';','2',';','5','1',';','5','1',';','5','1','m','─','\x1b','[','3','9','m'],
   ['\x1b','[','3','8',';','2',';','5','1',';','5','1',';','5','1','m','─','\x1b','[','3','9','m','\x1b','[','3','8',';','2',';','5','1',';','5','1',';','5','1','m','─'],
   ['\x1b','[','3','9','m','\x1b','[','3','8',';','2',';','5','1',';','5','1',';','5','1','m','─','\x1b','[','3','9','m'],
   ['\x1b','[','3','8',';','2',';','5','1',';','5','1',';','5','1','m','─','\x1b','[','3','9','m','\x1b','[','3','8',';','2',';','5','1',';','5','1',';','5','1','m','─'],
   ['\x1b','[','3','9','m','\x1b','[','3','8',';','2',';','5','1',';','5','1',';','5','1','m','─','\x1b','[','3','9','m'],
   ['\x1b','[','3','8',';','2',';','5','1',';','5','1',';','5','1','m','─','\x1b','[','3','9','m','\x1b','[','3','8',';','2',';','5','1',';','5','1',';','5','1','m','─'],
   ['\x1b','[','3','9','m','\x1b','[','3','8',';','2',';','5','1',';','5','1',';','5','1','m','─','\x1b','[','3','9','m'],
   ['\x1b','[','3','8',';','2',';','5','1',';','5','1',';','5','1','m','─','\x1b','[','3','9','m','\x1b','[','3','8',';','2',';','5','1',';','5','1',';','5','1','m','─'],
   ['\x1b','[','3','9','m','\x1b','[','3','8',';','2',';','5','1',';','5','1',';','5','1','m','─','\x1b','[','3','9','m'],
   ['\x1b','[','3','8',';','2',';','5','1',';','5','1',';','5','1','m','─','\x1b','[','3','9','m','\x1b','[','3','8',';','2',';','5','1',';','5','1',';','5','1','m','─'],
   ['\x1b','[','3','9','m','\x1b','[','3','8',';','2',';','5','1',';','5','1',';','5','1','m','─','\x1b','[','3','9','m'],
   ['\x1b','[','3','8',';','2',';','5','1',';','5','1',';','5','1','m','─','\x1b','[','3','9','m','\x1b','[','3','8',';','2',';','5','1',';','5','1',';','5','1','m','─'],
   ['\x1b','[','3','9','m','\x1b','[','3','8',';','2',';','5','1',';','5','1',';','5','1','m','─','\x1b','[','3','9','m'],
   ['\x1b','[','3','8',';','2',';','5','1',';','5','1',';','5','1','m','─','\x1b','[','3','9','m','\x1b','[','3','8',';','2',';','5','1',';','5','1',';','5','1','m','─'],
   ['\x1b','[','3','9','m','\x1b','[','3','8',';','2',';','5','1',';','5','1',';','5','1','m','─','\x1b','[','3','9','m'],
   ['\x1b','[','3','8',';','2',';','5','1',';','5','1',';','5','1','m','─','\x1b','[','3','9','m','\x1b','[','3','8',';','2',';','5','1',';','5','1',';','5','1','m','─'],
   ['\x1b','[','3','9','m','\x1b','[','3','8',';','2',';','5','1',';','5','1',';','5','1','m','─','\x1b','[','3','9','m'],
   ['\x1b','[','3','8',';','2',';','5','1',';','5','1',';','5','1','m','─','\x1b','[','3','9','m','\x1b','[','3','8',';','2',';','5','1',';','5','1',';','5','1','m','─'],
   ['\x1b','[','3','9','m','\x1b','[','3','8',';','2',';','5','1',';','5','1',';','5','1','m','─','\x1b','[','3','9','m'],
   ['\x1b','[','3','8',';','2',';','5','1',';','5','1',';','5','1','m','─','\x1b','[','3','9','m','\x1b','[','3','8',';','2',';','5','1',';','5','1',';','5','1','m','─'],
   ['\x1b','[','3','9','m','\x1b','[','3','8',';','2',';','5','1',';','5','1',';','5','1','m','─','\x1b','[','3','9','m'],
   ['\x1b','[','3','8',';','2',';','5','1',';','5','1',';','5','1','m','─','\x1b','[','3','9','m','\x1b','[','3','8',';','2',';','5','1',';','5','1',';','5','1','m','─'],
   ['\x1b','[','3','9','m','\x1b','[','3','8',';','2',';','5','1',';','5','1',';','5','1','m','─','\x1b','[','3','9','m'],
   ['\x1b','[','3','8',';','2',';','5','1',';','5','1',';','5','1','m','─','\x1b','[','3','9','m','\x1b','[','3','8',';','2',';','5','1',';','5','1',';','5','1','m','─'],
   ['\x1b','[','3','9','m','\x1b','[','3','8',';','2',';','5','1',';','5','1',';','5','1','m','─','\x1b','[','3','9','m'],
   ['\x1b','[','3','8',';','2',';','5','1',';','5','1',';','5','1','m','─','\x1b','[','3','9','m','\x1b','[','3','8',';','2',';','5','1',';','5','1',';','5','1','m','─'],
   ['\x1b','[','3','9','m','\x1b','[','3','8',';','2',';','5','1',';','5','1',';','5','1','m','─','\x1b','[','3','9','m'],
   ['\x1b','[','3','8',';','2',';','5','1',';','5','1',';','5','1','m','─','\x1b','[','3','9','m','\x1b','[','3','8',';','2',';','5','1',';','5','1',';','5','1','m','─'],
   ['\x1b','[','3','9','m','\x1b','[','3','8',';','2',';','5','1',';','5','1',';','5','1','m','─','\x1b','[','3','9','m'],
   ['\x1b','[','3','8',';','2',';','5','1',';','5','1',';','5','1','m','─','\x1b','[','3','9','m','\x1b','[','3','8',';','2',';','5','1',';','5','1',';','5','1','m','─'],
   ['\x1b','[','3','9','m','\x1b','[','3','8',';','2',';','5','1',';','5','1',';','5','1','m','─','\x1b','[','3','9','m'],
   ['\x1b','[','3','8',';','2',';','5','1',';','5','1',';','5','1','m','─','\x1b','[','3','9','m','\x1b','[','3','8',';','2',';','5','1',';','5','1',';','5','1','m','─'],
   ['\x1b','[','3','9','m','\x1b','[','3','8',';','2',';','5','1',';','5','1',';','5','1','m','─','\x1b','[','3','9','m'],
   ['\x1b','[','3','8',';','2',';','5','1',';','5','1',';','5','1','m','─','\x1b','[','3','9','m','\x1b','[','3','8',';','2',';','5','1',';','5','1',';','5','1','m','─'],
   ['\x1b','[','3','9','m','\x1b','[','3','8',';','2',';','5','1',';','5','1',';','5','1','m','─','\x1b','[','3','9','m'],
   ['\x1b','[','3','8',';','2',';','5','1',';','5','1',';','5','1','m','─','\x1b','[','3','9','m','\x1b','[','3','8',';','2',';','5','1',';','5','1',';','5','1','m','─'],
   ['\x1b','[','3','9','m','\x1b','[','3','8',';','2',';','5','1',';','5','1',';','5','1','m','─','\x1b','[','3','9','m'],
   ['\x1b','[','3','8',';','2',';','5','1',';','5','1',';','5','1','m','─','\x1b','[','3','9','m','\x1b','[','3','8',';','2',';','5','1',';','5','1',';','5','1','m','─'],
   ['\x1b','[','3','9','m','\x1b','[','3','8',';','2',';','5','1',';','5','1',';','5','1','m','─','\x1b','[','3','9','m'],
   ['\x1b','[','3','8',';','2',';','5','1',';','5','1',';','5','1','m','─','\x1b','[','3','9','m','\x1b','[','3','8',';','2',';','5','1',';','5','1',';','5','1','m','─'],
   ['\x1b','[','3','9','m','\x1b','[','3','8',';','2',';','5','1',';','5','1',';','5','1','m','─','\x1b','[','3','9','m'],
   ['\x1b','[','3','8',';','2',';','5','1',';','5','1',';','5','1','m','─','\x1b','[','3','9','m','\x1b','[','3','8',';','2',';','5','1',';','5','1',';','5','1','m','─'],
   ['\x1b','[','3','9','m','\x1b','[','3','8',';','2',';','5','1',';','5','1',';','5','1','m','─','\x1b','[','3','9','m'],
   ['\x1b','[','3','8',';','2',';','5','1',';','5','1',';','5','1','m','─','\x1b','[','3','9','m','\x1b','[','3','8',';','2',';','5','1',';','5','1',';','5','1','m','─'],
   ['\x1b','[','3','9','m','\x1b','[','3','8',';','2',';','5','1',';','5','1',';','5','1','m','─','\x1b','[','3','9','m'],
   ['\x1b','[','3','8',';','2',';','5','1',';','5','1',';','5','1','m','─','\x1b','[','3','9','m','\x1b','[','3','8',';','2',';','5','1',';','5','1',';','5','1','m','─'],
   ['\x1b','[','3','9','m','\x1b','[','3','8',';','2',';','5','1',';','5','1',';','5','1','m','─','\x1b','[','3','9','m'],
   ['\x1b','[','3','8',';','2',';','5','1',';','5','1',';','5','1','m','─','\x1b','[','3','9','m','\x1b','[','3','8',';','2',';','5','1',';','5','1',';','5','1','m','─'],
   ['\x1b','[','3','9','m','\x1b','[','3','8',';','2',';','5','1',';','5','1',';','5','1','m','─','\x1b','[','3','9','m'],
   ['\x1b','[','3','8',';','2',';','5','1',';','5','1',';','5','1','m','─','\x1b','[','3','9','m','\x1b','[','3','8',';','2',';','5','1',';','5','1',';','5','1','m','─'],
   ['\x1b','[','3','9','m','\x1b','[','3','8',';','2',';','5','1',';','5','1',';','5','1','m','─','\x1b','[','3','9','m'],
   ['\x1b','[','3','8',';','2',';','5','1',';','5','1',';','5','1','m','─','\x1b','[','3','9','m','\x1b','[','3','8',';','2',';','5','1',';','5','1',';','5','1','m','─'],
   ['\x1b','[','3','9','m','\x1b','[','3','8',';','2',';','5','1',';','5','1',';','5','1','m','─','\x1b','[','3','9','m'],
   ['\x1b','[','3','8',';','2',';','5','1',';','5','1',';','5','1','m','─','\x1b','[','3','9','m','\x1b','[','3','8',';','2',';','5','1',';','5','1',';','5','1','m','─'],
   ['\x1b','[','3','9','m','\x1b','[','3','8',';','2',';','5','1',';','5','1',';','5','1','m','─','\x1b','[','3','9','m'],
   ['\x1b','[','3','8',';','2',';','5','1',';','5','1',';','5','1','m','─','\x1b','[','3','9','m','\x1b','[','3','8',';','2',';','5','1',';','5','1',';','5','1','m','─'],
   ['\x1b','[','3','9','m','\x1b','[','3','8',';','2',';','5','1',';','5','1',';','5','1','m','─','\x1b','[','3','9','m','\n']],
  [[' ',' ',' ','\x1b','[','1',';','3','8',';','2',';','2','5','5',';','2','5','5',';','2','5','5',';','4','8',';','2',';','0',';','0',';','0','m',' ','θ',' '],
   ['\x1b','[','2','2',';','3','9',';','4','9','m',' ',' ',' ',' ',' ',' ',' ','\x1b','[','3','8',';','5',';','2','5','5',';','4','8',';','5',';','1','6','m','θ'],
   ['\x1b','[','3','9',';','4','9','m',' ',' ',' ',' ',' ',' ',' ',' ','\x1b','[','3','8',';','5',';','2','5','5',';','4','8',';','5',';','1','6','m',' ','1','b'],
   ['\x1b','[','3','9',';','4','9','m'],
   ['\x1b','[','3','8',';','5',';','2','5','5',';','4','8',';','5',';','1','6',';','4','8',';','5',';','1','6',';','4','m',' ','5','b',' ','6','d'],
   ['\x1b','[','3','9',';','4','9',';','4','9',';','2','4','m',' ',' ',' ',' ','\x1b','[','9','0','m','<','\x1b','[','m','\x1b','[','1','m','E','\x1b','[','m'],
   ['\x1b','[','9','0','m','>','\x1b','[','m',' ','S','G','R',' ','r','e','s','e','t',' ','s','e','q','u','e','n','c','e',' ',' '],
   ['\x1b','[','9','0','m','a','l','l',' ','p','a','r','a','m','s',' ','a','l','w','a','y','s',' ','u','n','d','e','r','l','i','n','e','d',';','\x1b','[','m','\n']],
  [[' ',' ',' ',' ',' ',' ',' ',' ',' ',' ',' ',' ','\x1b','[','3','8',';','5',';','2','5','5','m','⢸','\x1b','[','3','9','m'],
   ['\x1b','[','3','8',';','5',';','2','5','5',';','4','8',';','5',';','1','6','m','θ','\x1b','[','3','9',';','4','9','m'],
   ['\x1b','[','3','8',';','5',';','2','5','5',';','4','8',';','5',';','1','6',';','4','8',';','5',';','1','6',';','4','m'],
   ['\x1b','[','3','9',';','4','9',';','4','9',';','2','4','m','\x1b','[','3','8',';','5',';','2','5','5','m','⡇','\x1b','[','3','9','m',' ',' ',' ',' ',' ',' ',' '],
   ['\x1b','[','3','8',';','5',';','2','5','5',';','4','8',';','5',';','1','6','m',' ','1','b','\x1b','[','3','9',';','4','9','m'],
   ['\x1b','[','3','8',';','5',';','2','5','5',';','4','8',';','5',';','1','6',';','4','8',';','5',';','1','6',';','4','m',' ','5','b',' ','6','d'],
   ['\x1b','[','3','9',';','4','9',';','4','9',';','2','4','m',' ',' ',' ',' ',' ',' ',' ',' ','\x1b','[','9','0',';','1','m','-','m','1'],
   ['\x1b','[','3','8',';','5',';','1','1','7','m','·','\x1b','[','m',' ',' '],
   ['\x1b','[','9','0','m','s','e','p','a','r','a','t','o','r','s',' ','b','e','c','o','m','e',' ','v','i','s','i','b','l','e',' ','w','h','e','n',' '],
   ['\x1b','[','1','m','m','\x1b','[','m','\x1b','[','9','0','m',' ','i','s',' ','1',' ','o','r',' ','2',';','\x1b','[','m','\n']],
  [[' ',' ',' ',' ',' ',' ',' ',' ',' ',' ',' ','\x1b','[','3','8',';','5',';','2','5','5','m','⢸','\x1b','[','3','9','m'],
   ['\x1b','[','3','8',';','5',';','2','5','5',';','4','8',';','5',';','1','6','m','θ','\x1b','[','3','9',';','4','9','m'],
   ['\x1b','[','3','8',';','5',';','2','5','5',';','4','8',';','5',';','1','6',';','4','8',';','5',';','1','6',';','4','m','[','m'],
   ['\x1b','[','3','9',';','4','9',';','4','9',';','2','4','m','\x1b','[','3','8',';','5',';','2','5','5','m','⡇','\x1b','[','3','9','m',' ',' ',' ',' ',' ',' '],
   ['\x1b','[','3','8',';','5',';','2','5','5',';','4','8',';','5',';','1','6','m',' ','1','b','\x1b','[','3','9',';','4','9','m'],
   ['\x1b','[','3','8',';','5',';','2','5','5',';','4','8',';','5',';','1','6',';','4','8',';','5',';','1','6',';','4','m',' ','5','b',' ','6','d'],
   ['\x1b','[','3','9',';','4','9',';','4','9',';','2','4','m',' ',' ',' ',' ',' ',' ',' ',' ','\x1b','[','9','0',';','1','m','-','m','2'],
   ['\x1b','[','3','8',';','2',';','2','4','8',';','1','8','4',';','1','3','7','m','·','\x1b','[','m',' ',' '],
   ['\x1b','[','9','0','m','r','e','a','l',' ','S','G','R',' ','c','o','n','t','e','n','t','s',' ','e','x','c','e','p','t',' ','E','S','C',' ','-','>',' ','"'],
   ['\x1b','[','1','m','ǝ','\x1b','[','m','\x1b','[','9','0','m','"',' ','o','r',' ','"','\x1b','[','1','m','θ','\x1b','[','m','\x1b','[','9','0','m','"',';','\n']],
  [['\n']],
  [[' ',' ',' ','\x1b','[','1',';','3','8',';','2',';','2','5','5',';','2','5','5',';','2','5','5',';','4','8',';','2',';','0',';','0',';','0','m',' ','ǝ',' '],
   ['\x1b','[','2','2',';','3','9',';','4','9','m',' ',' ',' ',' ',' ',' ',' ','\x1b','[','3','8',';','5',';','2','1','0',';','4','8',';','5',';','1','6','m','ǝ'],
   ['\x1b','[','3','9',';','4','9','m',' ',' ',' ',' ',' ','\x1b','[','3','8',';','5',';','2','1','0',';','4','8',';','5',';','1','6','m',' ','1','b'],
   ['\x1b','[','3','9',';','4','9','m','\x1b','[','4','8',';','5',';','1','6',';','4','m',' ','5','b',' ','3','3',' ','3'],
   ['\x1b','[','4','9',';','2','4','m','‥',' ',' ',' ',' ','\x1b','[','9','0','m','<','\x1b','[','m','\x1b','[','1','m','E','\x1b','[','m','\x1b','[','9','0','m','>'],
   ['\x1b','[','m',' ','S','G','R',' ','s','e','q','u','e','n','c','e',' ',' ',' ',' '],
   ['\x1b','[','9','0','m','l','a','b','e','l',' ','c','o','l','o','r',' ','q',' ','t','o',' ','<','\x1b','[','m','\x1b','[','1','m','C','\x1b','[','m'],
   ['\x1b','[','9','0','m','>',' ','c','l','a','s','s',';','\x1b','[','m','\n']],
  [[' ',' ',' ',' ',' ',' ',' ',' ',' ',' ',' ',' ',' ','\x1b','[','3','3','m','ǝ','\x1b','[','3','9','m',' ',' ',' ',' ',' ','\x1b','[','3','3','m',' ','1','b'],
   ['\x1b','[','3','9','m','\x1b','[','4','8',';','5',';','1','6',';','4',';','3','3','m',' ','5','b',' ','3','3',' ','3'],
   ['\x1b','[','4','9',';','2','4',';','3','9','m','‥',' ',' ',' ',' ',' ',' ',' ',' ',' ',' ',' ',' ',' ',' '],
   ['\x1b','[','9','0',';','1','m','-','-','c','o','l','o','r','-','m','a','r','k','e','r','s','\x1b','[','m',' ',' '],
   ['\x1b','[','9','0','m','m','a','r','k','e','r',' ','c','o','l','o','r','s',' ','m','a','t','c','h',' ','S','G','R','\'','s',';','\x1b','[','m','\n']],
  [[' ',' ',' ',' ',' ',' ',' ',' ',' ',' ','\x1b','[','3','8',';','5',';','2','5','5','m','⢸','\x1b','[','3','9','m','\x1b','[','9','3','m','ǝ','\x1b','[','3','9','m'],
   ['\x1b','[','4','8',';','5',';','1','6',';','4',';','9','3','m','9','3','\x1b','[','2','4','m','･','\x1b','[','4','m','1','\x1b','[','4','9',';','2','4',';','3','9','m'],
   ['\x1b','[','3','8',';','5',';','2','5','5','m','⡇','\x1b','[','3','9','m',' ',' ','\x1b','[','9','3','m',' ','1','b','\x1b','[','3','9','m'],
   ['\x1b','[','4','8',';','5',';','1','6',';','4',';','9','3','m',' ','5','b',' ','3','9',' ','3'],
   ['\x1b','[','4','9',';','2','4',';','3','9','m','‥',' ',' ',' ',' ',' ',' ',' ',' ','\x1b','[','9','0',';','1','m','-','m','1'],
   ['\x1b','[','3','8',';','5',';','1','1','7','m','·','\x1b','[','m',' ',' ','\x1b','[','9','0',';','1','m','-','-','c','o','l','o','r','-','m','a','r','k','e','r','s'],
   ['\x1b','[','m',' ',' ','\x1b','[','9','0','m','i','n','d','e','x','-','1','6',' ','f','g',' ','a','n','d',' ','b','o','l','d',' ','c','o','d','e',';','\x1b','[','m','\n']],
  [[' ',' ',' ',' ',' ',' ',' ',' ','\x1b','[','3','8',';','5',';','2','5','5','m','⢸','\x1b','[','3','9','m'],
   ['\x1b','[','3','8',';','5',';','8','8',';','4','8',';','5',';','1','6','m','ǝ','\x1b','[','3','9',';','4','9','m'],
   ['\x1b','[','4','8',';','5',';','1','6',';','4',';','3','8',';','5',';','8','8',';','4','8',';','5',';','1','6','m','F','8','8','\x1b','[','2','4','m','･'],
   ['\x1b','[','4','m','B','1','6','\x1b','[','4','9',';','2','4',';','3','9',';','4','9','m','\x1b','[','3','8',';','5',';','2','5','5','m','⡇','\x1b','[','3','9','m',' '],
   ['\x1b','[','3','8',';','5',';','8','8',';','4','8',';','5',';','1','6','m',' ','1','b','\x1b','[','3','9',';','4','9','m'],
   ['\x1b','[','4','8',';','5',';','1','6',';','4',';','3','8',';','5',';','8','8',';','4','8',';','5',';','1','6','m',' ','5','b',' ','3','3',' ','3'],
   ['\x1b','[','4','9',';','2','4',';','3','9',';','4','9','m','‥',' ',' ',' ',' ',' ',' ',' ',' ','\x1b','[','9','0',';','1','m','-','m','1'],
   ['\x1b','[','3','8',';','5',';','1','1','7','m','·','\x1b','[','m',' ',' ','\x1b','[','9','0',';','1','m','-','-','c','o','l','o','r','-','m','a','r','k','e','r','s'],
   ['\x1b','[','m',' ',' ','\x1b','[','9','0','m','i','n','d','e','x','-','2','5','6',' ','f','g',' ','a','n','d',' ','b','g',' ','c','o','d','e','s',';','\x1b','[','m','\n']],
  [[' ',' ',' ',' ',' ',' ',' ',' ','\x1b','[','3','8',';','5',';','2','5','5','m','⢸','\x1b','[','3','9','m'],
   ['\x1b','[','3','8',';','2',';','1','7','0',';','1','0','6',';','1','0','6','m','ǝ','\x1b','[','3','9','m'],
   ['\x1b','[','4','8',';','5',';','1','6',';','4',';','3','8',';','2',';','1','7','0',';','1','0','6',';','1','0','6','m','F','A','A','6','A','6','A'],
   ['\x1b','[','4','9',';','2','4',';','3','9','m','\x1b','[','3','8',';','5',';','2','5','5','m','⡇','\x1b','[','3','9','m',' '],
   ['\x1b','[','3','8',';','2',';','1','7','0',';','1','0','6',';','1','0','6','m',' ','1','b','\x1b','[','3','9','m'],
   ['\x1b','[','4','8',';','5',';','1','6',';','4',';','3','8',';','2',';','1','7','0',';','1','0','6',';','1','0','6','m',' ','5','b',' ','3','3',' ','3'],
   ['\x1b','[','4','9',';','2','4',';','3','9','m','‥',' ',' ',' ',' ',' ',' ',' ',' ','\x1b','[','9','0',';','1','m','-','m','1'],
   ['\x1b','[','3','8',';','5',';','1','1','7','m','·','\x1b','[','m',' ',' ','\x1b','[','9','0',';','1','m','-','-','c','o','l','o','r','-','m','a','r','k','e','r','s'],
   ['\x1b','[','m',' ',' ','\x1b','[','9','0','m','t','r','u','e',' ','c','o','l','o','r',' ','R','G','B',' ','h','e','x','.',' ','v','a','l','u','e',';','\x1b','[','m','\n']],
  [[' ',' ',' ',' ',' ',' ',' ',' ','\x1b','[','3','8',';','5',';','2','5','5','m','⢸','\x1b','[','3','9','m'],
   ['\x1b','[','3','8',';','5',';','2','1','0',';','4','8',';','5',';','1','6','m','ǝ','\x1b','[','3','9',';','4','9','m'],
   ['\x1b','[','4','8',';','5',';','1','6',';','4','m','[','3','8',';','2',';','1','7','0',';','1','0','6',';','1','0','6','m','\x1b','[','4','9',';','2','4','m'],
   ['\x1b','[','3','8',';','5',';','2','5','5','m','⡇','\x1b','[','3','9','m',' ',' ',' ',' ',' ',' ',' ',' ',' ',' ','\x1b','[','9','0',';','1','m','-','m','2'],
   ['\x1b','[','3','8',';','2',';','2','4','8',';','1','8','4',';','1','3','7','m','·','\x1b','[','m',' ',' '],
   ['\x1b','[','9','0','m','r','e','a','l',' ','S','G','R',' ','c','o','n','t','e','n','t','s',';',' ','s','a','m','e',' ','d','a','t','a',' ','a','s',' ','i','n',' ','p','r','e','v','.','e','x','.'],
   ['\x1b','[','m','\n']],
  [['\n']],
  [[' ',' ',' ','\x1b','[','1',';','3','8',';','2',';','2','5','5',';','2','5','5',';','2','5','5',';','4','8',';','2',';','0',';','0',';','0','m',' ','Ͻ',' '],
   ['\x1b','[','2','2',';','3','9',';','4','9','m',' ',' ',' ',' ','\x1b','[','3','8',';','5',';','2','5','5','m','⢸','\x1b','[','3','9','m','\x1b','[','9','2','m','Ͻ'],
   ['\x1b','[','3','9','m','\x1b','[','9','2',';','4','8',';','5',';','1','6',';','4','m','[','2','4','d','\x1b','[','3','9',';','4','9',';','2','4','m'],
   ['\x1b','[','3','8',';','5',';','2','5','5','m','⡇','\x1b','[','3','9','m',' ',' ','\x1b','[','9','2','m',' ','1','b','\x1b','[','3','9','m'],
   ['\x1b','[','9','2',';','4','8',';','5',';','1','6',';','4','m',' ','5','b',' ','3','2',' ','3','\x1b','[','3','9',';','4','9',';','2','4','m','‥',' ',' ',' ',' '],
   ['\x1b','[','9','0','m','<','\x1b','[','m','\x1b','[','1','m','E','\x1b','[','m','\x1b','[','9','0','m','>'],
   ['\x1b','[','m',' ','C','S','I',' ','s','e','q','u','e','n','c','e',' ',' ','\x1b','[','9','0',';','1','m','-','m','2'],
   ['\x1b','[','3','8',';','2',';','2','4','8',';','1','8','4',';','1','3','7','m','·','\x1b','[','m',' ',' ',' ',' ',' '],
   ['\x1b','[','9','0','m','c','o','l','o','r',' ','d','e','p','e','n','d','s',' ','o','n',' ','s','e','q',' ','t','y','p','e',',','\x1b','[','m','\n']],
  [[' ',' ',' ','\x1b','[','1',';','3','8',';','2',';','2','5','5',';','2','5','5',';','2','5','5',';','4','8',';','2',';','0',';','0',';','0','m',' ','ꟻ',' '],
   ['\x1b','[','2','2',';','3','9',';','4','9','m',' ',' ',' ',' ',' ','\x1b','[','3','8',';','5',';','2','5','5','m','⢸','\x1b','[','3','9','m'],
   ['\x1b','[','3','2',';','7','m','ꟻ','\x1b','[','3','9',';','2','7','m','\x1b','[','3','2',';','4','8',';','5',';','1','6',';','4','m','(','B'],
   ['\x1b','[','3','9',';','4','9',';','2','4','m','\x1b','[','3','8',';','5',';','2','5','5','m','⡇','\x1b','[','3','9','m',' ',' ',' ',' ',' ',' '],
   ['\x1b','[','3','2',';','7','m',' ','1','b','\x1b','[','3','9',';','2','7','m','\x1b','[','3','2',';','4','8',';','5',';','1','6',';','4','m',' ','2','8',' ','4','2'],
   ['\x1b','[','3','9',';','4','9',';','2','4','m',' ',' ',' ',' ','\x1b','[','9','0','m','<','\x1b','[','m','\x1b','[','1','m','E','\x1b','[','m','\x1b','[','9','0','m','>'],
   ['\x1b','[','m',' ',' ','n','F',' ','s','e','q','u','e','n','c','e',' ',' ','\x1b','[','9','0',';','1','m','-','m','2'],
   ['\x1b','[','3','8',';','2',';','2','4','8',';','1','8','4',';','1','3','7','m','·','\x1b','[','m',' ',' ','\x1b','[','9','0',';','1','m','-','e'],
   ['\x1b','[','m',' ',' ',' ',' ',' ','\x1b','[','9','0','m','n','o','t',' ','o','n',' ','s','e','q',' ','p','a','r','a','m','s',' ','(','i','n','\x1b','[','m','\n']],
  [[' ',' ',' ','\x1b','[','1',';','3','8',';','2',';','2','5','5',';','2','5','5',';','2','5','5',';','4','8',';','2',';','0',';','0',';','0','m',' ','ꟼ',' '],
   ['\x1b','[','2','2',';','3','9',';','4','9','m',' ',' ',' ',' ',' ','\x1b','[','3','8',';','5',';','2','5','5','m','⢸','\x1b','[','3','9','m'],
   ['\x1b','[','3','3',';','7','m','ꟼ','\x1b','[','3','9',';','2','7','m','\x1b','[','3','3',';','4','8',';','5',';','1','6',';','4','m','2'],
   ['\x1b','[','3','9',';','4','9',';','2','4','m','\x1b','[','3','8',';','5',';','2','5','5','m','⡇','\x1b','[','3','9','m',' ',' ',' ',' ',' ',' ',' ',' ',' ',' '],
   ['\x1b','[','3','3',';','7','m',' ','1','b','\x1b','[','3','9',';','2','7','m','\x1b','[','3','3',';','4','8',';','5',';','1','6',';','4','m',' ','3','2'],
   ['\x1b','[','3','9',';','4','9',';','2','4','m',' ',' ',' ',' ','\x1b','[','9','0','m','<','\x1b','[','m','\x1b','[','1','m','E','\x1b','[','m','\x1b','[','9','0','m','>'],
   ['\x1b','[','m',' ',' ','F','p',' ','s','e','q','u','e','n','c','e',' ',' ','\x1b','[','9','0',';','1','m','-','m','2'],
   ['\x1b','[','3','8',';','2',';','2','4','8',';','1','8','4',';','1','3','7','m','·','\x1b','[','m',' ',' ','\x1b','[','9','0',';','1','m','-','e'],
   ['\x1b','[','m',' ',' ',' ',' ',' ',' ',' ','\x1b','[','9','0','m','c','o','n','t','r','a','s','t',' ','w','i','t','h',' ','S','G','R','s',')','.','\x1b','[','m','\n']],
  [[' ',' ',' ','\x1b','[','1',';','3','8',';','2',';','2','5','5',';','2','5','5',';','2','5','5',';','4','8',';','2',';','0',';','0',';','0','m',' ','Ǝ',' '],
   ['\x1b','[','2','2',';','3','9',';','4','9','m',' ',' ',' ',' ',' ',' ','\x1b','[','3','8',';','5',';','2','5','5','m','⢸','\x1b','[','3','9','m','\x1b','[','3','3','m','Ǝ'],
   ['\x1b','[','3','9','m','\x1b','[','3','3',';','4','8',';','5',';','1','6',';','4','m','\x1b','[','3','9',';','4','9',';','2','4','m'],
   ['\x1b','[','3','8',';','5',';','2','5','5','m','⡇','\x1b','[','3','9','m',' ',' ',' ',' ',' ',' ',' ',' ',' ',' ','\x1b','[','3','3','m',' ','1','b','\x1b','[','3','9','m'],
   ['\x1b','[','3','3',';','4','8',';','5',';','1','6',';','4','m',' ','4','7','\x1b','[','3','9',';','4','9',';','2','4','m',' ',' ',' ',' ','\x1b','[','9','0','m','<'],
   ['\x1b','[','m','\x1b','[','1','m','E','\x1b','[','m','\x1b','[','9','0','m','>','\x1b','[','m',' ',' ','F','e',' ','s','e','q','u','e','n','c','e',' ',' '],
   ['\x1b','[','9','0',';','1','m','-','m','1','\x1b','[','3','8',';','5',';','1','1','7','m','·','\x1b','[','m','\n']],
  [[' ',' ',' ','\x1b','[','1',';','3','8',';','2',';','2','5','5',';','2','5','5',';','2','5','5',';','4','8',';','2',';','0',';','0',';','0','m',' ','Ꙅ',' '],
   ['\x1b','[','2','2',';','3','9',';','4','9','m',' ',' ',' ',' ',' ',' ',' ','\x1b','[','3','3','m','Ꙅ','\x1b','[','3','9','m',' ',' ',' ',' ',' ',' ',' ',' ',' ',' ',' '],
   ['\x1b','[','3','3','m',' ','1','b','\x1b','[','3','9','m','\x1b','[','3','3',';','4','8',';','5',';','1','6',';','4','m',' ','7','3'],
   ['\x1b','[','3','9',';','4','9',';','2','4','m',' ',' ',' ',' ','\x1b','[','9','0','m','<','\x1b','[','m','\x1b','[','1','m','E','\x1b','[','m','\x1b','[','9','0','m','>'],
   ['\x1b','[','m',' ',' ','F','s',' ','s','e','q','u','e','n','c','e','\n']],
  [[' ','\x1b','[','3','8',';','2',';','5','1',';','5','1',';','5','1','m','─','\x1b','[','3','9','m','\x1b','[','3','8',';','2',';','5','1',';','5','1',';','5','1','m','─'],
   ['\x1b','[','3','9','m','\x1b','[','3','8',';','2',';','5','1',';','5','1',';','5','1','m','─','\x1b','[','3','9','m'],
   ['\x1b','[','3','8',';','2',';','5','1',';','5','1',';','5','1','m','─','\x1b','[','3','9','m','\x1b','[','3','8',';','2',';','5','1',';','5','1',';','5','1','m','─'],
   ['\x1b','[','3','9','m','\x1b','[','3','8',';','2',';','5','1',';','5','1',';','5','1','m','─','\x1b','[','3','9','m'],
   ['\x1b','[','3','8',';','2',';','5','1',';','5','1',';','5','1','m','─','\x1b','[','3','9','m','\x1b','[','3','8',';','2',';','5','1',';','5','1',';','5','1','m','─'],
   ['\x1b','[','3','9','m','\x1b','[','3','8',';','2',';','5','1',';','5','1',';','5','1','m','─','\x1b','[','3','9','m'],
   ['\x1b','[','3','8',';','2',';','5','1',';','5','1',';','5','1','m','─','\x1b','[','3','9','m','\x1b','[','3','8',';','2',';','5','1',';','5','1',';','5','1','m','─'],
   ['\x1b','[','3','9','m','\x1b','[','3','8',';','2',';','5','1',';','5','1',';','5','1','m','─','\x1b','[','3','9','m'],
   ['\x1b','[','3','8',';','2',';','5','1',';','5','1',';','5','1','m','─','\x1b','[','3','9','m','\x1b','[','3','8',';','2',';','5','1',';','5','1',';','5','1','m','─'],
   ['\x1b','[','3','9','m','\x1b','[','3','8',';','2',';','5','1',';','5','1',';','5','1','m','─','\x1b','[','3','9','m'],
   ['\x1b','[','3','8',';','2',';','5','1',';','5','1',';','5','1','m','─','\x1b','[','3','9','m','\x1b','[','3','8',';','2',';','5','1',';','5','1',';','5','1','m','─'],
   ['\x1b','[','3','9','m','\x1b','[','3','8',';','2',';','5','1',';','5','1',';','5','1','m','─','\x1b','[','3','9','m'],
   ['\x1b','[','3','8',';','2',';','5','1',';','5','1',';','5','1','m','─','\x1b','[','3','9','m','\x1b','[','3','8',';','2',';','5','1',';','5','1',';','5','1','m','─'],
   ['\x1b','[','3','9','m','\x1b','[','3','8',';','2',';','5','1',';','5','1',';','5','1','m','─','\x1b','[','3','9','m'],
   ['\x1b','[','3','8',';','2',';','5','1',';','5','1',';','5','1','m','─','\x1b','[','3','9','m','\x1b','[','3','8',';','2',';','5','1',';','5','1',';','5','1','m','─'],
   ['\x1b','[','3','9','m','\x1b','[','3','8',';','2',';','5','1',';','5','1',';','5','1','m','─','\x1b','[','3','9','m'],
   ['\x1b','[','3','8',';','2',';','5','1',';','5','1',';','5','1','m','─','\x1b','[','3','9','m','\x1b','[','3','8',';','2',';','5','1',';','5','1',';','5','1','m','─'],
   ['\x1b','[','3','9','m','\x1b','[','3','8',';','2',';','5','1',';','5','1',';','5','1','m','─','\x1b','[','3','9','m'],
   ['\x1b','[','3','8',';','2',';','5','1',';','5','1',';','5','1','m','─','\x1b','[','3','9','m','\x1b','[','3','8',';','2',';','5','1',';','5','1',';','5','1','m','─'],
   ['\x1b','[','3','9','m','\x1b','[','3','8',';','2',';','5','1',';','5','1',';','5','1','m','─','\x1b','[','3','9','m'],
   ['\x1b','[','3','8',';','2',';','5','1',';','5','1',';','5','1','m','─','\x1b','[','3','9','m','\x1b','[','3','8',';','2',';','5','1',';','5','1',';','5','1','m','─'],
   ['\x1b','[','3','9','m','\x1b','[','3','8',';','2',';','5','1',';','5','1',';','5','1','m','─','\x1b','[','3','9','m'],
   ['\x1b','[','3','8',';','2',';','5','1',';','5','1',';','5','1','m','─','\x1b','[','3','9','m','\x1b','[','3','8',';','2',';','5','1',';','5','1',';','5','1','m','─'],
   ['\x1b','[','3','9','m','\x1b','[','3','8',';','2',';','5','1',';','5','1',';','5','1','m','─','\x1b','[','3','9','m'],
   ['\x1b','[','3','8',';','2',';','5','1',';','5','1',';','5','1','m','─','\x1b','[','3','9','m','\x1b','[','3','8',';','2',';','5','1',';','5','1',';','5','1','m','─'],
   ['\x1b','[','3','9','m','\x1b','[','3','8',';','2',';','5','1',';','5','1',';','5','1','m','─','\x1b','[','3','9','m'],
   ['\x1b','[','3','8',';','2',';','5','1',';','5','1',';','5','1','m','─','\x1b','[','3','9','m','\x1b','[','3','8',';','2',';','5','1',';','5','1',';','5','1','m','─'],
   ['\x1b','[','3','9','m','\x1b','[','3','8',';','2',';','5','1',';','5','1',';','5','1','m','─','\x1b','[','3','9','m'],
   ['\x1b','[','3','8',';','2',';','5','1',';','5','1',';','5','1','m','─','\x1b','[','3','9','m','\x1b','[','3','8',';','2',';','5','1',';','5','1',';','5','1','m','─'],
   ['\x1b','[','3','9','m','\x1b','[','3','8',';','2',';','5','1',';','5','1',';','5','1','m','─','\x1b','[','3','9','m'],
   ['\x1b','[','3','8',';','2',';','5','1',';','5','1',';','5','1','m','─','\x1b','[','3','9','m','\x1b','[','3','8',';','2',';','5','1',';','5','1',';','5','1','m','─'],
   ['\x1b','[','3','9','m','\x1b','[','3','8',';','2',';','5','1',';','5','1',';','5','1','m','─','\x1b','[','3','9','m'],
   ['\x1b','[','3','8',';','2',';','5','1',';','5','1',';','5','1','m','─','\x1b','[','3','9','m','\x1b','[','3','8',';','2',';','5','1',';','5','1',';','5','1','m','─'],
   ['\x1b','[','3','9','m','\x1b','[','3','8',';','2',';','5','1',';','5','1',';','5','1','m','─','\x1b','[','3','9','m'],
   ['\x1b','[','3','8',';','2',';','5','1',';','5','1',';','5','1','m','─','\x1b','[','3','9','m','\x1b','[','3','8',';','2',';','5','1',';','5','1',';','5','1','m','─'],
   ['\x1b','[','3','9','m','\x1b','[','3','8',';','2',';','5','1',';','5','1',';','5','1','m','─','\x1b','[','3','9','m'],
   ['\x1b','[','3','8',';','2',';','5','1',';','5','1',';','5','1','m','─','\x1b','[','3','9','m','\x1b','[','3','8',';','2',';','5','1',';','5','1',';','5','1','m','─'],
   ['\x1b','[','3','9','m','\x1b','[','3','8',';','2',';','5','1',';','5','1',';','5','1','m','─','\x1b','[','3','9','m'],
   ['\x1b','[','3','8',';','2',';','5','1',';','5','1',';','5','1','m','─','\x1b','[','3','9','m','\x1b','[','3','8',';','2',';','5','1',';','5','1',';','5','1','m','─'],
   ['\x1b','[','3','9','m','\x1b','[','3','8',';','2',';','5','1',';','5','1',';','5','1','m','─','\x1b','[','3','9','m'],
   ['\x1b','[','3','8',';','2',';','5','1',';','5','1',';','5','1','m','─','\x1b','[','3','9','m','\x1b','[','3','8',';','2',';','5','1',';','5','1',';','5','1','m','─'],
   ['\x1b','[','3','9','m','\x1b','[','3','8',';','2',';','5','1',';','5','1',';','5','1','m','─','\x1b','[','3','9','m'],
   ['\x1b','[','3','8',';','2',';','5','1',';','5','1',';','5','1','m','─','\x1b','[','3','9','m','\x1b','[','3','8',';','2',';','5','1',';','5','1',';','5','1','m','─'],
   ['\x1b','[','3','9','m','\x1b','[','3','8',';','2',';','5','1',';','5','1',';','5','1','m','─','\x1b','[','3','9','m'],
   ['\x1b','[','3','8',';','2',';','5','1',';','5','1',';','5','1','m','─','\x1b','[','3','9','m','\x1b','[','3','8',';','2',';','5','1',';','5','1',';','5','1','m','─'],
   ['\x1b','[','3','9','m','\x1b','[','3','8',';','2',';','5','1',';','5','1',';','5','1','m','─','\x1b','[','3','9','m'],
   ['\x1b','[','3','8',';','2',';','5','1',';','5','1',';','5','1','m','─','\x1b','[','3','9','m','\x1b','[','3','8',';','2',';','5','1',';','5','1',';','5','1','m','─'],
   ['\x1b','[','3','9','m','\x1b','[','3','8',';','2',';','5','1',';','5','1',';','5','1','m','─','\x1b','[','3','9','m'],
   ['\x1b','[','3','8',';','2',';','5','1',';','5','1',';','5','1','m','─','\x1b','[','3','9','m','\x1b','[','3','8',';','2',';','5','1',';','5','1',';','5','1','m','─'],
   ['\x1b','[','3','9','m','\x1b','[','3','8',';','2',';','5','1',';','5','1',';','5','1','m','─','\x1b','[','3','9','m'],
   ['\x1b','[','3','8',';','2',';','5','1',';','5','1',';','5','1','m','─','\x1b','[','3','9','m','\x1b','[','3','8',';','2',';','5','1',';','5','1',';','5','1','m','─'],
   ['\x1b','[','3','9','m','\x1b','[','3','8',';','2',';','5','1',';','5','1',';','5','1','m','─','\x1b','[','3','9','m'],
   ['\x1b','[','3','8',';','2',';','5','1',';','5','1',';','5','1','m','─','\x1b','[','3','9','m','\x1b','[','3','8',';','2',';','5','1',';','5','1',';','5','1','m','─'],
   ['\x1b','[','3','9','m','\x1b','[','3','8',';','2',';','5','1',';','5','1',';','5','1','m','─','\x1b','[','3','9','m'],
   ['\x1b','[','3','8',';','2',';','5','1',';','5','1',';','5','1','m','─','\x1b','[','3','9','m','\x1b','[','3','8',';','2',';','5','1',';','5','1',';','5','1','m','─'],
   ['\x1b','[','3','9','m','\x1b','[','3','8',';','2',';','5','1',';','5','1',';','5','1','m','─','\x1b','[','3','9','m'],
   ['\x1b','[','3','8',';','2',';','5','1',';','5','1',';','5','1','m','─','\x1b','[','3','9','m','\x1b','[','3','8',';','2',';','5','1',';','5','1',';','5','1','m','─'],
   ['\x1b','[','3','9','m','\x1b','[','3','8',';','2',';','5','1',';','5','1',';','5','1','m','─','\x1b','[','3','9','m','\n']],
  [['\n']],
  [['\x1b','[','9','0','m','F','o','r',' ','t','h','e',' ','b','e','s','t',' ','v','i','e','w',' ','y','o','u','r',' ','t','e','r','m','i','n','a','l',' ','s','h','o','u','l','d',' ','b','e',' '],
   ['\x1b','[','1','m','8','8','\x1b','[','2','2','m',' ','c','h','a','r','s',' ','w','i','d','e',' ','(','o','r',' ','w','i','d','e','r',')','\x1b','[','m','\n']],
  [['\n']],
  [['\x1b','[','9','0','m','I','s',' ','a',' ','p','a','r','t',' ','o','f',' ','\x1b','[','1',';','3','7','m','e','s','7','s','\x1b','[','9','0','m',' ','p','a','c','k'],
   ['\x1b','[','m','\n']],
  [['\x1b','[','9','0','m','(','c',')',' ','2','0','2','2','—','2','0','2','3',' ','A','.',' ','S','h','a','v','y','k','i','n','\x1b','[','m','\n']],
  [['\x1b','[','9','0','m','<','\x1b','[','9','4','m','0','\x1b','[','9','0','m','.','d','e','l','a','m','e','t','e','r','@','g','m','a','i','l','.','c','o','m','>'],
   ['\x1b','[','m','\n']],
  [['#',' ','G','e','n','e','r','a','t','e','d',' ','a','t',' ','2','2','-','M','a','y','-','2','3',' ','0','4',':','1','2']]]

/-- The bundled legend (/repo/kolombos/legend.ansi). -/
def legendFile : Str := (legendLines.map List.flatten).flatten

end Kolombos
