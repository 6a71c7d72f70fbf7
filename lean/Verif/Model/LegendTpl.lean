import Verif.Model.Base
/-
dev/legend.tpl.ansi
-/
namespace Kolombos

set_option maxRecDepth 20000 in
/-- The lines of the template of the legend (/repo/dev/legend.tpl.ansi), each in one or more parts. -/
def legendTemplateLines : List (List Str) := [
  [['^','{','b','o','l','d',';','h','i','_','g','r','e','e','n','}',' ',' ',' ',' ','_','_',' ',' ',' ',' ',' ',' ',' ',' ',' ','^','{','b','l','u','e',' ',' ',' ',' ',' ',' ',' ',' ',' ',' ',' ',' ',' ',' ','}','_','_',' ',' ',' ',' ',' ',' '],
   [' ',' ',' ',' ',' ',' ',' ',' ',' ',' ','_','_','^','{','}','\n']],
  [['^','{','b','o','l','d',';','h','i','_','g','r','e','e','n','}',' ',' ',' ','/',' ','/','^','{','h','i','_','g','r','e','e','n','}','_','_','^','{','h','i','_','b','l','u','e','}','_','_','_','_',' ',' ','/',' ','/','_','_','_',' ',' ','_'],
   ['_','_','_',' ','_','_','_',' ',' ','/',' ','/','_',' ',' ','_','_','_','_',' ','^','{','h','i','_','y','e','l','l','o','w','}',' ','_','_','_','_','_','^','{','}','\n']],
  [['^','{','b','o','l','d',';','g','r','e','e','n',' ',' ',' ','}',' ',' ','/',' ','/','/','_','/','^','{','c','y','a','n','}',' ','_','_',' ','\\','/',' ','/',' ','_','_',' ','\\','^','{','m','a','g','e','n','t','a',' ',' ',' ',' ','}','/',' '],
   ['_','_',' ','\'','_','_',' ','\\','/',' ','_','_',' ','\\','/',' ','_','_',' ','\\','^','{','y','e','l','l','o','w',' ',' ',' ','}','/',' ','_','_','_','/','^','{','}','\n']],
  [['^','{','b','o','l','d',';','h','i','_','b','l','u','e',' ','}',' ','/',' ',',','<',' ','^','{','c','y','a','n','}','/',' ','/','_','/',' ','/',' ','/',' ','/','_','/',' ','^','{','m','a','g','e','n','t','a',' ',' ',' ',' ','}','/',' ','/'],
   [' ','/',' ','/',' ','/',' ','/',' ','/','_','/',' ','/',' ','/','_','/',' ','^','{','y','e','l','l','o','w',' ',' ',' ','}','(','_','_',' ',' ',')','^','{','}','\n']],
  [['^','{','b','o','l','d',';','b','l','u','e',' ',' ',' ',' ','}','/','_','/','|','_','|','^','{','b','l','u','e','}','\\','_','_','_','_','/','_','/','\\','_','_','_','_','#','{','}','·','·','·','·','·','·','·','·','{','}','#','/','_','/',' '],
   ['/','_','/',' ','/','_','/','\\','.','_','_','_','/','\\','_','_','_','_','^','{','y','e','l','l','o','w',' ',' ',' ','}','/','_','_','_','_','/','^','{','}','\n']],
  [['#','{','}','·','·','·','·','·','·','·','·','·','·','{','}','#',' ',' ',' ',' ',' ',' ',' ','#','{','}','{','}','#',' ',' ',' ',' ',' ',' ',' ',' ',' ',' ',' ',' ',' ','#','{','}','·','·','·','·','·','·','·','·','{','}','#',' ',' ',' ',' '],
   [' ',' ',' ',' ',' ',' ',' ',' ',' ',' ',' ',' ',' ',' ',' ',' ',' ',' ',' ',' ','^','{','h','i','_','y','e','l','l','o','w','}','v',':','{','v','e','r','}','^','{','}','\n']],
  [['\n']],
  [[':','{','f','m','t','_','h','e','a','d','e','r','}','C','H','A','R','A','C','T','E','R',' ','C','L','A','S','S','E','S','^','{','}','\n']],
  [[' ',' ',':','{','f','m','t','_','c','o','m','m','e','n','t','}','<','^','{','}',':','{','f','m','t','_','c','c','}','S','^','{','}',':','{','f','m','t','_','c','o','m','m','e','n','t','}','>','^','{','}',' ',' ',' ','A','S','C','I','I',' '],
   ['w','h','i','t','e','s','p','a','c','e',' ','c','h','a','r','s',' ',' ',' ','0','9','-','0','d',',',' ','2','0',' ',' ',' ',' ',' ',' ',':','{','f','m','t','_','p','a','r','a','m','}','-','s',' ','-','S','^','{','}','\n']],
  [[' ',' ',':','{','f','m','t','_','c','o','m','m','e','n','t','}','<','^','{','}',':','{','f','m','t','_','c','c','}','C','^','{','}',':','{','f','m','t','_','c','o','m','m','e','n','t','}','>','^','{','}',' ',' ',' ','A','S','C','I','I',' '],
   ['c','o','n','t','r','o','l',' ','c','h','a','r','s',' ',' ',' ',' ',' ',' ','0','1','-','0','8',',',' ','0','e','-','1','f',' ',' ',' ',':','{','f','m','t','_','p','a','r','a','m','}','-','c',' ','-','C','^','{','}','\n']],
  [[' ',' ',':','{','f','m','t','_','c','o','m','m','e','n','t','}','<','^','{','}',':','{','f','m','t','_','c','c','}','P','^','{','}',':','{','f','m','t','_','c','o','m','m','e','n','t','}','>','^','{','}',' ',' ',' ','A','S','C','I','I',' '],
   ['p','r','i','n','t','a','b','l','e',' ','c','h','a','r','s',' ',' ',' ',' ','2','1','-','7','e',' ',' ',' ',' ',' ',' ',' ',' ',' ',' ',':','{','f','m','t','_','p','a','r','a','m','}','-','p',' ','-','P','^','{','}','\n']],
  [[' ',' ',':','{','f','m','t','_','c','o','m','m','e','n','t','}','<','^','{','}',':','{','f','m','t','_','c','c','}','I','^','{','}',':','{','f','m','t','_','c','o','m','m','e','n','t','}','>','^','{','}',' ',' ',' ','b','i','n','a','r','y'],
   [' ','d','a','t','a',' ',' ',' ',' ',' ',' ',' ',' ',' ',' ',' ',' ',' ',' ','8','0','-','f','f',' ',' ',' ',' ',' ',' ',' ',' ',' ',' ',':','{','f','m','t','_','p','a','r','a','m','}','-','i',' ','-','I','^','{','}','\n']],
  [[' ',' ',':','{','f','m','t','_','c','o','m','m','e','n','t','}','<','^','{','}',':','{','f','m','t','_','c','c','}','U','^','{','}',':','{','f','m','t','_','c','o','m','m','e','n','t','}','>','^','{','}',' ',' ',' ','U','T','F','-','8',' '],
   ['s','e','q','u','e','n','c','e','s',' ',' ',' ',' ',' ',' ',' ',' ',' ',' ','v','a','r','i','o','u','s',' ',' ',' ',' ',' ',' ',' ',' ',':','{','f','m','t','_','p','a','r','a','m','}','-','u',' ','-','U','^','{','}','\n']],
  [[' ',' ',':','{','f','m','t','_','c','o','m','m','e','n','t','}','<','^','{','}',':','{','f','m','t','_','c','c','}','E','^','{','}',':','{','f','m','t','_','c','o','m','m','e','n','t','}','>','^','{','}',' ',' ',' ','A','N','S','I',' ','e'],
   ['s','c','a','p','e',' ','s','e','q','u','e','n','c','e','s',' ',' ',' ',' ','1','b','[','.','.',']',' ',' ',' ',' ',' ',' ',' ',' ',' ',':','{','f','m','t','_','p','a','r','a','m','}','-','e',' ','-','E','^','{','}','\n']],
  [['\n']],
  [[':','{','f','m','t','_','h','e','a','d','e','r','}','S','I','G','I','L','S','^','{','}','\n']],
  [[' ',':','{','f','m','t','_','t','h','e','a','d','}','C','H','A','R','(','s',')','^','{','}',' ',':','{','f','m','t','_','t','h','e','a','d','}','O','U','T','P','U','T',' ','(','r','e','g','u','l','a','r','/','f','o','c','u','s','e','d',')'],
   ['^','{','}',' ',' ',':','{','f','m','t','_','t','h','e','a','d','}','C','L','S','^','{','}',' ',':','{','f','m','t','_','t','h','e','a','d','}',' ',' ',' ',' ',' ',' ',' ',' ',' ',' ',' ',' ',' ','D','E','S','C','R','I','P','T','I','O','N'],
   [' ','a','n','d',' ','N','O','T','E','S',' ',' ',' ',' ',' ',' ',' ',' ',' ',' ',' ',' ',' ',' ',' ',' ',' ',' ',' ',' ',' ',' ',' ',' ',' ',' ',' ',' ','^','{','}','\n']],
  [[' ',' ',' ',' ',' ',' ',' ',' ',' ',':','{','f','m','t','_','t','h','e','a','d','}','T','E','X','T',' ','m','o','d','e','^','{','}',' ',':','{','f','m','t','_','t','h','e','a','d','}',' ','B','I','N','A','R','Y',' ','m','o','d','e',' ','^'],
   ['{','}','\n']],
  [[' ',':','{','s','e','p','a','r','a','t','o','r','}','\n']],
  [[' ',':','{','e','x','_','s','_','t','a','b',' ',' ','}',':','{','f','m','t','_','c','o','m','m','e','n','t','}','<','^','{','}',':','{','f','m','t','_','c','c','}',':','{','f','m','t','_','c','c','}','S','^','{','}',':','{','f','m','t','_'],
   ['c','o','m','m','e','n','t','}','>','^','{','}',' ','h','o','r','i','z','o','n','t','a','l',' ','t','a','b',' ',' ',' ',' ',':','{','f','m','t','_','c','o','m','m','e','n','t','}','H','T',' ',' ','"','^','{','b','o','l','d','}','\\','t','^'],
   ['{','}',':','{','f','m','t','_','c','o','m','m','e','n','t','}','"',' ',' ',' ',' ',' ',' ',' ',' ','o','r','i','g','i','n',' ','i','s',' ','k','e','p','t',';','^','{','}','\n']],
  [[' ',':','{','e','x','_','s','_','l','f',' ',' ',' ','}',':','{','f','m','t','_','c','o','m','m','e','n','t','}','<','^','{','}',':','{','f','m','t','_','c','c','}','S','^','{','}',':','{','f','m','t','_','c','o','m','m','e','n','t','}','>'],
   ['^','{','}',' ','l','i','n','e',' ','f','e','e','d',' ',' ',' ',' ',' ',' ',' ',' ',' ',':','{','f','m','t','_','c','o','m','m','e','n','t','}','L','F',' ',' ','"','^','{','b','o','l','d','}','\\','n','^','{','}',':','{','f','m','t','_','c'],
   ['o','m','m','e','n','t','}','"',' ',' ',' ',' ',' ',' ',' ',' ','o','r','i','g','i','n',' ','i','s',' ','k','e','p','t',';','^','{','}','\n']],
  [[' ',':','{','e','x','_','s','_','v','t','a','b',' ','}',':','{','f','m','t','_','c','o','m','m','e','n','t','}','<','^','{','}',':','{','f','m','t','_','c','c','}','S','^','{','}',':','{','f','m','t','_','c','o','m','m','e','n','t','}','>'],
   ['^','{','}',' ','v','e','r','t','i','c','a','l',' ','t','a','b',' ',' ',' ',' ',' ',' ',':','{','f','m','t','_','c','o','m','m','e','n','t','}','V','T',' ',' ','"','^','{','b','o','l','d','}','\\','v','^','{','}',':','{','f','m','t','_','c'],
   ['o','m','m','e','n','t','}','"','^','{','}','\n']],
  [[' ',':','{','e','x','_','s','_','f','f',' ',' ',' ','}',':','{','f','m','t','_','c','o','m','m','e','n','t','}','<','^','{','}',':','{','f','m','t','_','c','c','}','S','^','{','}',':','{','f','m','t','_','c','o','m','m','e','n','t','}','>'],
   ['^','{','}',' ','f','o','r','m',' ','f','e','e','d',' ',' ',' ',' ',' ',' ',' ',' ',' ',':','{','f','m','t','_','c','o','m','m','e','n','t','}','F','F',' ',' ','"','^','{','b','o','l','d','}','\\','f','^','{','}',':','{','f','m','t','_','c'],
   ['o','m','m','e','n','t','}','"','^','{','}','\n']],
  [[' ',':','{','e','x','_','s','_','c','r',' ',' ',' ','}',':','{','f','m','t','_','c','o','m','m','e','n','t','}','<','^','{','}',':','{','f','m','t','_','c','c','}','S','^','{','}',':','{','f','m','t','_','c','o','m','m','e','n','t','}','>'],
   ['^','{','}',' ','c','a','r','r','i','a','g','e',' ','r','e','t','u','r','n',' ',' ',' ',':','{','f','m','t','_','c','o','m','m','e','n','t','}','C','R',' ',' ','"','^','{','b','o','l','d','}','\\','r','^','{','}',':','{','f','m','t','_','c'],
   ['o','m','m','e','n','t','}','"','^','{','}','\n']],
  [[' ',':','{','e','x','_','s','_','s','p','a','c','e','}',':','{','f','m','t','_','c','o','m','m','e','n','t','}','<','^','{','}',':','{','f','m','t','_','c','c','}','S','^','{','}',':','{','f','m','t','_','c','o','m','m','e','n','t','}','>'],
   ['^','{','}',' ','s','p','a','c','e',' ',' ',' ',' ',' ',' ',' ',' ',' ',' ',' ',' ',' ',':','{','f','m','t','_','c','o','m','m','e','n','t','}','S','P','\n']],
  [[' ',':','{','s','e','p','a','r','a','t','o','r','}','\n']],
  [[' ',':','{','e','x','_','c','_','m','i','s','c','0','}',':','{','f','m','t','_','c','o','m','m','e','n','t','}','<','^','{','}',':','{','f','m','t','_','c','c','}','C','^','{','}',':','{','f','m','t','_','c','o','m','m','e','n','t','}','>'],
   ['^','{','}',' ','g','e','n','e','r','i','c',' ','c','o','n','t','r','o','l',' ','c','h','a','r',' ',' ',' ',' ',':','{','f','m','t','_','c','o','m','m','e','n','t','}','C','C','s',' ','w','i','t','h','o','u','t',' ','u','n','i','q','u','e'],
   [' ','s','i','g','i','l',';','^','{','}','\n']],
  [[' ',':','{','e','x','_','c','_','m','i','s','c','1','}',' ',' ',' ',' ',':','{','f','m','t','_','p','a','r','a','m','}','-','-','t','e','x','t',' ','-','-','m','a','r','k','e','r','=',':','{','f','m','t','_','m','1','}','1','^','{','}',' '],
   [' ',' ',':','{','f','m','t','_','c','o','m','m','e','n','t','}','c','h','a','r',' ','f','r','o','m',' ','c','a','r','e','t',' ','n','o','t','a','t','i','o','n',':',' ','^','C',';','\n']],
  [[' ',':','{','e','x','_','c','_','m','i','s','c','2','}',' ',' ',' ',' ',':','{','f','m','t','_','p','a','r','a','m','}','-','-','t','e','x','t',' ','-','-','m','a','r','k','e','r','=',':','{','f','m','t','_','m','2','}','2','^','{','}',' '],
   [' ',' ',' ',':','{','f','m','t','_','c','o','m','m','e','n','t','}','r','e','a','l',' ','c','h','a','r',' ','h','e','x','a','d','e','c','i','m','a','l',' ','v','a','l','u','e',';','\n']],
  [['\n']],
  [[' ',':','{','e','x','_','c','_','n','u','l','l',' ','}',':','{','f','m','t','_','c','o','m','m','e','n','t','}','<','^','{','}',':','{','f','m','t','_','c','c','}','C','^','{','}',':','{','f','m','t','_','c','o','m','m','e','n','t','}','>'],
   ['^','{','}',' ','n','u','l','l',' ','b','y','t','e',' ',' ',' ',' ',' ',' ',' ',' ',':','{','f','m','t','_','c','o','m','m','e','n','t','}','N','U','L',' ',' ','"','^','{','b','o','l','d','}','\\','0','^','{','}',':','{','f','m','t','_','c'],
   ['o','m','m','e','n','t','}','"','^','{','}','\n']],
  [[' ',':','{','e','x','_','c','_','b','s','k','p','c','}',':','{','f','m','t','_','c','o','m','m','e','n','t','}','<','^','{','}',':','{','f','m','t','_','c','c','}','C','^','{','}',':','{','f','m','t','_','c','o','m','m','e','n','t','}','>'],
   ['^','{','}',' ','b','a','c','k','s','p','a','c','e',' ',' ',' ',' ',' ',' ',' ',' ',':','{','f','m','t','_','c','o','m','m','e','n','t','}',' ','B','S',' ',' ','"','^','{','b','o','l','d','}','\\','b','^','{','}',':','{','f','m','t','_','c'],
   ['o','m','m','e','n','t','}','"','^','{','}','\n']],
  [[' ',':','{','e','x','_','c','_','d','e','l',' ',' ','}',':','{','f','m','t','_','c','o','m','m','e','n','t','}','<','^','{','}',':','{','f','m','t','_','c','c','}','C','^','{','}',':','{','f','m','t','_','c','o','m','m','e','n','t','}','>'],
   ['^','{','}',' ','d','e','l','e','t','e',' ',' ',' ',' ',' ',' ',' ',' ',' ',' ',' ',':','{','f','m','t','_','c','o','m','m','e','n','t','}','D','E','L','\n']],
  [[' ',':','{','e','x','_','c','_','e','s','c',' ',' ','}',':','{','f','m','t','_','c','o','m','m','e','n','t','}','<','^','{','}',':','{','f','m','t','_','c','c','}','C','^','{','}',':','{','f','m','t','_','c','o','m','m','e','n','t','}','>'],
   ['^','{','}',' ','e','s','c','a','p','e',' ',' ',' ',' ',' ',' ',' ',' ',' ',' ',' ',':','{','f','m','t','_','c','o','m','m','e','n','t','}','E','S','C',' ',' ','"','^','{','b','o','l','d','}','\\','e','^','{','}',':','{','f','m','t','_','c'],
   ['o','m','m','e','n','t','}','"',' ','(','s','h','e','l','l',')','^','{','}','\n']],
  [[' ',':','{','s','e','p','a','r','a','t','o','r','}','\n']],
  [[' ',':','{','e','x','_','p','_','p','r','i','n','t','}',':','{','f','m','t','_','c','o','m','m','e','n','t','}','<','^','{','}',':','{','f','m','t','_','c','c','}','P','^','{','}',':','{','f','m','t','_','c','o','m','m','e','n','t','}','>'],
   ['^','{','}',' ','A','S','C','I','I',' ','p','r','i','n','t','a','b','l','e',' ','c','h','a','r','\n']],
  [[' ',':','{','e','x','_','p','_','p','r','i','n','t','2','}','\n']],
  [[' ',':','{','s','e','p','a','r','a','t','o','r','}','\n']],
  [[' ',':','{','e','x','_','i','_','2',' ',' ',' ',' ','}',':','{','f','m','t','_','c','o','m','m','e','n','t','}','<','^','{','}',':','{','f','m','t','_','c','c','}','I','^','{','}',':','{','f','m','t','_','c','o','m','m','e','n','t','}','>'],
   ['^','{','}',' ','b','i','n','a','r','y',' ','d','a','t','a',' ',' ',':','{','f','m','t','_','p','a','r','a','m','}','-','t','^','{','}',' ',' ',' ',' ',' ',':','{','f','m','t','_','c','o','m','m','e','n','t','}','s','e','q','u','e','n','c'],
   ['e','s',' ','t','h','a','t',' ','c','a','n','n','o','t',' ','b','e',' ','c','l','a','-','^','{','}','\n']],
  [[' ',':','{','e','x','_','i','_','1',' ',' ',' ',' ','}',' ',' ',' ',' ',' ',' ',' ',' ',' ',' ',' ',' ',' ',' ',' ',' ',' ',':','{','f','m','t','_','p','a','r','a','m','}','-','b','^','{','}',' ',' ',' ',' ',' ',':','{','f','m','t','_','c'],
   ['o','m','m','e','n','t','}','s','s','i','f','i','e','d',' ','a','s',' ','a','n','y',' ','o','f',' ','t','h','e',' ','o','t','h','e','r','s',';','^','{','}','\n']],
  [[' ',':','{','s','e','p','a','r','a','t','o','r','}','\n']],
  [[' ',':','{','e','x','_','u','_','3',' ',' ',' ',' ','}',':','{','f','m','t','_','c','o','m','m','e','n','t','}','<','^','{','}',':','{','f','m','t','_','c','c','}','U','^','{','}',':','{','f','m','t','_','c','o','m','m','e','n','t','}','>'],
   ['^','{','}',' ','U','T','F','-','8',' ','s','e','q','u','e','n','c','e',' ',' ',':','{','f','m','t','_','p','a','r','a','m','}','-','-','t','e','x','t','^','{','}',':','{','f','m','t','_','c','o','m','m','e','n','t','}',' ',' ',' ',' ',' '],
   [' ',' ',' ','d','e','c','o','d','e','d',' ','b','y',' ','d','e','f','a','u','l','t',';','^','{','}','\n']],
  [[' ',':','{','e','x','_','u','_','1',' ',' ',' ',' ','}',' ',' ',' ',' ',' ',' ',' ',' ',' ',' ',' ',' ',' ',' ',' ',' ',' ',' ',' ',' ',':','{','f','m','t','_','p','a','r','a','m','}','-','-','b','i','n','a','r','y','^','{','}','\n']],
  [[' ',':','{','e','x','_','u','_','2',' ',' ',' ',' ','}',' ',' ',' ',' ',' ',' ',' ',' ',' ',' ',' ',' ',' ',' ',' ',' ',' ',' ',' ',' ',':','{','f','m','t','_','p','a','r','a','m','}','-','-','b','i','n','a','r','y','^','{','}',' ',':','{'],
   ['f','m','t','_','p','a','r','a','m','}','-','-','d','e','c','o','d','e','^','{','}','\n']],
  [[' ',':','{','s','e','p','a','r','a','t','o','r','}','\n']],
  [[' ',':','{','e','x','_','e','_','r','e','s','e','t','_','m','0','}',':','{','f','m','t','_','c','o','m','m','e','n','t','}','<','^','{','}',':','{','f','m','t','_','c','c','}','E','^','{','}',':','{','f','m','t','_','c','o','m','m','e','n'],
   ['t','}','>','^','{','}',' ','S','G','R',' ','r','e','s','e','t',' ','s','e','q','u','e','n','c','e',' ',' ',':','{','f','m','t','_','c','o','m','m','e','n','t','}','a','l','l',' ','p','a','r','a','m','s',' ','a','l','w','a','y','s',' ','u'],
   ['n','d','e','r','l','i','n','e','d',';','^','{','}','\n']],
  [[' ',':','{','e','x','_','e','_','r','e','s','e','t','_','m','1','}',' ',' ',' ',' ',':','{','f','m','t','_','p','a','r','a','m','}','-','m','1',':','{','f','m','t','_','m','1','}','·','^','{','}',' ',' ',':','{','f','m','t','_','c','o','m'],
   ['m','e','n','t','}','s','e','p','a','r','a','t','o','r','s',' ','b','e','c','o','m','e',' ','v','i','s','i','b','l','e',' ','w','h','e','n',' ','^','{','b','o','l','d','}','m','^','{','}',':','{','f','m','t','_','c','o','m','m','e','n','t'],
   ['}',' ','i','s',' ','1',' ','o','r',' ','2',';','^','{','}','\n']],
  [[' ',':','{','e','x','_','e','_','r','e','s','e','t','_','m','2','}',' ',' ',' ',' ',':','{','f','m','t','_','p','a','r','a','m','}','-','m','2',':','{','f','m','t','_','m','2','}','·','^','{','}',' ',' ',':','{','f','m','t','_','c','o','m'],
   ['m','e','n','t','}','r','e','a','l',' ','S','G','R',' ','c','o','n','t','e','n','t','s',' ','e','x','c','e','p','t',' ','E','S','C',' ','-','>',' ','"','^','{','b','o','l','d','}','ǝ','^','{','}',':','{','f','m','t','_','c','o','m','m','e'],
   ['n','t','}','"',' ','o','r',' ','"','^','{','b','o','l','d','}','θ','^','{','}',':','{','f','m','t','_','c','o','m','m','e','n','t','}','"',';','\n']],
  [['\n']],
  [[' ',':','{','e','x','_','e','_','s','g','r','_','m','0',' ',' ','}',':','{','f','m','t','_','c','o','m','m','e','n','t','}','<','^','{','}',':','{','f','m','t','_','c','c','}','E','^','{','}',':','{','f','m','t','_','c','o','m','m','e','n'],
   ['t','}','>','^','{','}',' ','S','G','R',' ','s','e','q','u','e','n','c','e',' ',' ',' ',' ',':','{','f','m','t','_','c','o','m','m','e','n','t','}','l','a','b','e','l',' ','c','o','l','o','r',' ','q',' ','t','o',' ','<','^','{','}',':','{'],
   ['f','m','t','_','c','c','}','C','^','{','}',':','{','f','m','t','_','c','o','m','m','e','n','t','}','>',' ','c','l','a','s','s',';','^','{','}','\n']],
  [[' ',':','{','e','x','_','e','_','s','g','r','_','m','0','c',' ','}',' ',' ',' ',' ',' ',' ',' ',' ',' ',' ',':','{','f','m','t','_','p','a','r','a','m','}','-','-','c','o','l','o','r','-','m','a','r','k','e','r','s','^','{','}',' ',' ',':'],
   ['{','f','m','t','_','c','o','m','m','e','n','t','}','m','a','r','k','e','r',' ','c','o','l','o','r','s',' ','m','a','t','c','h',' ','S','G','R','\'','s',';','^','{','}','\n']],
  [[' ',':','{','e','x','_','e','_','s','g','r','_','m','1',' ',' ','}',' ',' ',' ',' ',':','{','f','m','t','_','p','a','r','a','m','}','-','m','1',':','{','f','m','t','_','m','1','}','·','^','{','}',' ',' ',':','{','f','m','t','_','p','a','r'],
   ['a','m','}','-','-','c','o','l','o','r','-','m','a','r','k','e','r','s','^','{','}',' ',' ',':','{','f','m','t','_','c','o','m','m','e','n','t','}','i','n','d','e','x','-','1','6',' ','f','g',' ','a','n','d',' ','b','o','l','d',' ','c','o'],
   ['d','e',';','^','{','}','\n']],
  [[' ',':','{','e','x','_','e','_','s','g','r','_','m','1','_','2','}',' ',' ',' ',' ',':','{','f','m','t','_','p','a','r','a','m','}','-','m','1',':','{','f','m','t','_','m','1','}','·','^','{','}',' ',' ',':','{','f','m','t','_','p','a','r'],
   ['a','m','}','-','-','c','o','l','o','r','-','m','a','r','k','e','r','s','^','{','}',' ',' ',':','{','f','m','t','_','c','o','m','m','e','n','t','}','i','n','d','e','x','-','2','5','6',' ','f','g',' ','a','n','d',' ','b','g',' ','c','o','d'],
   ['e','s',';','^','{','}','\n']],
  [[' ',':','{','e','x','_','e','_','s','g','r','_','m','1','_','3','}',' ',' ',' ',' ',':','{','f','m','t','_','p','a','r','a','m','}','-','m','1',':','{','f','m','t','_','m','1','}','·','^','{','}',' ',' ',':','{','f','m','t','_','p','a','r'],
   ['a','m','}','-','-','c','o','l','o','r','-','m','a','r','k','e','r','s','^','{','}',' ',' ',':','{','f','m','t','_','c','o','m','m','e','n','t','}','t','r','u','e',' ','c','o','l','o','r',' ','R','G','B',' ','h','e','x','.',' ','v','a','l'],
   ['u','e',';','^','{','}','\n']],
  [[' ',':','{','e','x','_','e','_','s','g','r','_','m','2','}',' ',' ',' ',' ',' ',' ',':','{','f','m','t','_','p','a','r','a','m','}','-','m','2',':','{','f','m','t','_','m','2','}','·','^','{','}',' ',' ',':','{','f','m','t','_','c','o','m'],
   ['m','e','n','t','}','r','e','a','l',' ','S','G','R',' ','c','o','n','t','e','n','t','s',';',' ','s','a','m','e',' ','d','a','t','a',' ','a','s',' ','i','n',' ','p','r','e','v','.','e','x','.','^','{','}','\n']],
  [['\n']],
  [[' ',':','{','e','x','_','e','_','c','s','i',' ',' ','}',':','{','f','m','t','_','c','o','m','m','e','n','t','}','<','^','{','}',':','{','f','m','t','_','c','c','}','E','^','{','}',':','{','f','m','t','_','c','o','m','m','e','n','t','}','>'],
   ['^','{','}',' ','C','S','I',' ','s','e','q','u','e','n','c','e',' ',' ',':','{','f','m','t','_','p','a','r','a','m','}','-','m','2',':','{','f','m','t','_','m','2','}','·','^','{','}',' ',' ',' ',' ',' ',':','{','f','m','t','_','c','o','m'],
   ['m','e','n','t','}','c','o','l','o','r',' ','d','e','p','e','n','d','s',' ','o','n',' ','s','e','q',' ','t','y','p','e',',','^','{','}','\n']],
  [[' ',':','{','e','x','_','e','_','n','f',' ',' ',' ','}',':','{','f','m','t','_','c','o','m','m','e','n','t','}','<','^','{','}',':','{','f','m','t','_','c','c','}','E','^','{','}',':','{','f','m','t','_','c','o','m','m','e','n','t','}','>'],
   ['^','{','}',' ',' ','n','F',' ','s','e','q','u','e','n','c','e',' ',' ',':','{','f','m','t','_','p','a','r','a','m','}','-','m','2',':','{','f','m','t','_','m','2','}','·','^','{','}',' ',' ',':','{','f','m','t','_','p','a','r','a','m','}'],
   ['-','e','^','{','}',' ',' ',' ',' ',' ',':','{','f','m','t','_','c','o','m','m','e','n','t','}','n','o','t',' ','o','n',' ','s','e','q',' ','p','a','r','a','m','s',' ','(','i','n','^','{','}','\n']],
  [[' ',':','{','e','x','_','e','_','f','p',' ',' ',' ','}',':','{','f','m','t','_','c','o','m','m','e','n','t','}','<','^','{','}',':','{','f','m','t','_','c','c','}','E','^','{','}',':','{','f','m','t','_','c','o','m','m','e','n','t','}','>'],
   ['^','{','}',' ',' ','F','p',' ','s','e','q','u','e','n','c','e',' ',' ',':','{','f','m','t','_','p','a','r','a','m','}','-','m','2',':','{','f','m','t','_','m','2','}','·','^','{','}',' ',' ',':','{','f','m','t','_','p','a','r','a','m','}'],
   ['-','e','^','{','}',' ',' ',' ',' ',' ',' ',' ',':','{','f','m','t','_','c','o','m','m','e','n','t','}','c','o','n','t','r','a','s','t',' ','w','i','t','h',' ','S','G','R','s',')','.','^','{','}','\n']],
  [[' ',':','{','e','x','_','e','_','f','e',' ',' ',' ','}',':','{','f','m','t','_','c','o','m','m','e','n','t','}','<','^','{','}',':','{','f','m','t','_','c','c','}','E','^','{','}',':','{','f','m','t','_','c','o','m','m','e','n','t','}','>'],
   ['^','{','}',' ',' ','F','e',' ','s','e','q','u','e','n','c','e',' ',' ',':','{','f','m','t','_','p','a','r','a','m','}','-','m','1',':','{','f','m','t','_','m','1','}','·','^','{','}','\n']],
  [[' ',':','{','e','x','_','e','_','f','s',' ',' ',' ','}',':','{','f','m','t','_','c','o','m','m','e','n','t','}','<','^','{','}',':','{','f','m','t','_','c','c','}','E','^','{','}',':','{','f','m','t','_','c','o','m','m','e','n','t','}','>'],
   ['^','{','}',' ',' ','F','s',' ','s','e','q','u','e','n','c','e','\n']],
  [[' ',':','{','s','e','p','a','r','a','t','o','r','}','\n']],
  [['\n']],
  [[':','{','f','m','t','_','c','o','m','m','e','n','t','}','F','o','r',' ','t','h','e',' ','b','e','s','t',' ','v','i','e','w',' ','y','o','u','r',' ','t','e','r','m','i','n','a','l',' ','s','h','o','u','l','d',' ','b','e',' ','^','{','b','o'],
   ['l','d','}','8','8','^','{','b','o','l','d','_','d','i','m','_','o','f','f','}',' ','c','h','a','r','s',' ','w','i','d','e',' ','(','o','r',' ','w','i','d','e','r',')','^','{','}','\n']],
  [['\n']],
  [[':','{','f','m','t','_','c','o','m','m','e','n','t','}','I','s',' ','a',' ','p','a','r','t',' ','o','f',' ','^','{','b','o','l','d',';','w','h','i','t','e','}','e','s','7','s',':','{','f','m','t','_','c','o','m','m','e','n','t','}',' ','p'],
   ['a','c','k','^','{','}','\n']],
  [[':','{','f','m','t','_','c','o','m','m','e','n','t','}','(','c',')',' ','2','0','2','2','—','2','0','2','3',' ','A','.',' ','S','h','a','v','y','k','i','n','^','{','}','\n']],
  [[':','{','f','m','t','_','c','o','m','m','e','n','t','}','<','^','{','h','i','_','b','l','u','e','}','0',':','{','f','m','t','_','c','o','m','m','e','n','t','}','.','d','e','l','a','m','e','t','e','r','@','g','m','a','i','l','.','c','o','m'],
   ['>','^','{','}','\n']]]

/-- The template of the legend (/repo/dev/legend.tpl.ansi). -/
def legendTemplate : Str := (legendTemplateLines.map List.flatten).flatten

end Kolombos
