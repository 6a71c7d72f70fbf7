import Verif.Model.Ansi
import Verif.Model.Style
import Verif.Model.Help
/-
pytermor/color.py, pytermor/render.py: colours by name.
-/
namespace Kolombos

/-- `Colors` (pytermor/color.py:334-642), with the codes of pytermor/ansi.py:440-490. -/
def colorTable : List (Str × PColor) := [
  (chars% "BLACK", .ix16 ⟨some 0x000000, some 30, some 40⟩),
  (chars% "RED", .ix16 ⟨some 0x800000, some 31, some 41⟩),
  (chars% "GREEN", .ix16 ⟨some 0x008000, some 32, some 42⟩),
  (chars% "YELLOW", .ix16 ⟨some 0x808000, some 33, some 43⟩),
  (chars% "BLUE", .ix16 ⟨some 0x000080, some 34, some 44⟩),
  (chars% "MAGENTA", .ix16 ⟨some 0x800080, some 35, some 45⟩),
  (chars% "CYAN", .ix16 ⟨some 0x008080, some 36, some 46⟩),
  (chars% "WHITE", .ix16 ⟨some 0xc0c0c0, some 37, some 47⟩),
  (chars% "GREY", .ix16 ⟨some 0x808080, some 90, some 100⟩),
  (chars% "HI_RED", .ix16 ⟨some 0xff0000, some 91, some 101⟩),
  (chars% "HI_GREEN", .ix16 ⟨some 0x00ff00, some 92, some 102⟩),
  (chars% "HI_YELLOW", .ix16 ⟨some 0xffff00, some 93, some 103⟩),
  (chars% "HI_BLUE", .ix16 ⟨some 0x0000ff, some 94, some 104⟩),
  (chars% "HI_MAGENTA", .ix16 ⟨some 0xff00ff, some 95, some 105⟩),
  (chars% "HI_CYAN", .ix16 ⟨some 0x00ffff, some 96, some 106⟩),
  (chars% "HI_WHITE", .ix16 ⟨some 0xffffff, some 97, some 107⟩),
  (chars% "GREY_0", .ix256 ⟨some 0x000000, some 16, none⟩),
  (chars% "NAVY_BLUE", .ix256 ⟨some 0x00005f, some 17, none⟩),
  (chars% "DARK_BLUE", .ix256 ⟨some 0x000087, some 18, none⟩),
  (chars% "BLUE_3", .ix256 ⟨some 0x0000af, some 19, none⟩),
  (chars% "BLUE_2", .ix256 ⟨some 0x0000d7, some 20, none⟩),
  (chars% "BLUE_1", .ix256 ⟨some 0x0000ff, some 21, none⟩),
  (chars% "DARK_GREEN", .ix256 ⟨some 0x005f00, some 22, none⟩),
  (chars% "DEEP_SKY_BLUE_7", .ix256 ⟨some 0x005f5f, some 23, none⟩),
  (chars% "DEEP_SKY_BLUE_6", .ix256 ⟨some 0x005f87, some 24, none⟩),
  (chars% "DEEP_SKY_BLUE_5", .ix256 ⟨some 0x005faf, some 25, none⟩),
  (chars% "DODGER_BLUE_3", .ix256 ⟨some 0x005fd7, some 26, none⟩),
  (chars% "DODGER_BLUE_2", .ix256 ⟨some 0x005fff, some 27, none⟩),
  (chars% "GREEN_5", .ix256 ⟨some 0x008700, some 28, none⟩),
  (chars% "SPRING_GREEN_4", .ix256 ⟨some 0x00875f, some 29, none⟩),
  (chars% "TURQUOISE_4", .ix256 ⟨some 0x008787, some 30, none⟩),
  (chars% "DEEP_SKY_BLUE_4", .ix256 ⟨some 0x0087af, some 31, none⟩),
  (chars% "DEEP_SKY_BLUE_3", .ix256 ⟨some 0x0087d7, some 32, none⟩),
  (chars% "DODGER_BLUE_1", .ix256 ⟨some 0x0087ff, some 33, none⟩),
  (chars% "GREEN_4", .ix256 ⟨some 0x00af00, some 34, none⟩),
  (chars% "SPRING_GREEN_5", .ix256 ⟨some 0x00af5f, some 35, none⟩),
  (chars% "DARK_CYAN", .ix256 ⟨some 0x00af87, some 36, none⟩),
  (chars% "LIGHT_SEA_GREEN", .ix256 ⟨some 0x00afaf, some 37, none⟩),
  (chars% "DEEP_SKY_BLUE_2", .ix256 ⟨some 0x00afd7, some 38, none⟩),
  (chars% "DEEP_SKY_BLUE_1", .ix256 ⟨some 0x00afff, some 39, none⟩),
  (chars% "GREEN_3", .ix256 ⟨some 0x00d700, some 40, none⟩),
  (chars% "SPRING_GREEN_3", .ix256 ⟨some 0x00d75f, some 41, none⟩),
  (chars% "SPRING_GREEN_6", .ix256 ⟨some 0x00d787, some 42, none⟩),
  (chars% "CYAN_3", .ix256 ⟨some 0x00d7af, some 43, none⟩),
  (chars% "DARK_TURQUOISE", .ix256 ⟨some 0x00d7d7, some 44, none⟩),
  (chars% "TURQUOISE_2", .ix256 ⟨some 0x00d7ff, some 45, none⟩),
  (chars% "GREEN_2", .ix256 ⟨some 0x00ff00, some 46, none⟩),
  (chars% "SPRING_GREEN_2", .ix256 ⟨some 0x00ff5f, some 47, none⟩),
  (chars% "SPRING_GREEN_1", .ix256 ⟨some 0x00ff87, some 48, none⟩),
  (chars% "MEDIUM_SPRING_GREEN", .ix256 ⟨some 0x00ffaf, some 49, none⟩),
  (chars% "CYAN_2", .ix256 ⟨some 0x00ffd7, some 50, none⟩),
  (chars% "CYAN_1", .ix256 ⟨some 0x00ffff, some 51, none⟩),
  (chars% "DARK_RED_2", .ix256 ⟨some 0x5f0000, some 52, none⟩),
  (chars% "DEEP_PINK_8", .ix256 ⟨some 0x5f005f, some 53, none⟩),
  (chars% "PURPLE_5", .ix256 ⟨some 0x5f0087, some 54, none⟩),
  (chars% "PURPLE_4", .ix256 ⟨some 0x5f00af, some 55, none⟩),
  (chars% "PURPLE_3", .ix256 ⟨some 0x5f00d7, some 56, none⟩),
  (chars% "BLUE_VIOLET", .ix256 ⟨some 0x5f00ff, some 57, none⟩),
  (chars% "ORANGE_4", .ix256 ⟨some 0x5f5f00, some 58, none⟩),
  (chars% "GREY_37", .ix256 ⟨some 0x5f5f5f, some 59, none⟩),
  (chars% "MEDIUM_PURPLE_7", .ix256 ⟨some 0x5f5f87, some 60, none⟩),
  (chars% "SLATE_BLUE_3", .ix256 ⟨some 0x5f5faf, some 61, none⟩),
  (chars% "SLATE_BLUE_2", .ix256 ⟨some 0x5f5fd7, some 62, none⟩),
  (chars% "ROYAL_BLUE_1", .ix256 ⟨some 0x5f5fff, some 63, none⟩),
  (chars% "CHARTREUSE_6", .ix256 ⟨some 0x5f8700, some 64, none⟩),
  (chars% "DARK_SEA_GREEN_9", .ix256 ⟨some 0x5f875f, some 65, none⟩),
  (chars% "PALE_TURQUOISE_4", .ix256 ⟨some 0x5f8787, some 66, none⟩),
  (chars% "STEEL_BLUE", .ix256 ⟨some 0x5f87af, some 67, none⟩),
  (chars% "STEEL_BLUE_3", .ix256 ⟨some 0x5f87d7, some 68, none⟩),
  (chars% "CORNFLOWER_BLUE", .ix256 ⟨some 0x5f87ff, some 69, none⟩),
  (chars% "CHARTREUSE_5", .ix256 ⟨some 0x5faf00, some 70, none⟩),
  (chars% "DARK_SEA_GREEN_8", .ix256 ⟨some 0x5faf5f, some 71, none⟩),
  (chars% "CADET_BLUE_2", .ix256 ⟨some 0x5faf87, some 72, none⟩),
  (chars% "CADET_BLUE", .ix256 ⟨some 0x5fafaf, some 73, none⟩),
  (chars% "SKY_BLUE_3", .ix256 ⟨some 0x5fafd7, some 74, none⟩),
  (chars% "STEEL_BLUE_2", .ix256 ⟨some 0x5fafff, some 75, none⟩),
  (chars% "CHARTREUSE_4", .ix256 ⟨some 0x5fd700, some 76, none⟩),
  (chars% "PALE_GREEN_4", .ix256 ⟨some 0x5fd75f, some 77, none⟩),
  (chars% "SEA_GREEN_3", .ix256 ⟨some 0x5fd787, some 78, none⟩),
  (chars% "AQUAMARINE_3", .ix256 ⟨some 0x5fd7af, some 79, none⟩),
  (chars% "MEDIUM_TURQUOISE", .ix256 ⟨some 0x5fd7d7, some 80, none⟩),
  (chars% "STEEL_BLUE_1", .ix256 ⟨some 0x5fd7ff, some 81, none⟩),
  (chars% "CHARTREUSE_2", .ix256 ⟨some 0x5fff00, some 82, none⟩),
  (chars% "SEA_GREEN_4", .ix256 ⟨some 0x5fff5f, some 83, none⟩),
  (chars% "SEA_GREEN_2", .ix256 ⟨some 0x5fff87, some 84, none⟩),
  (chars% "SEA_GREEN_1", .ix256 ⟨some 0x5fffaf, some 85, none⟩),
  (chars% "AQUAMARINE_2", .ix256 ⟨some 0x5fffd7, some 86, none⟩),
  (chars% "DARK_SLATE_GRAY_2", .ix256 ⟨some 0x5fffff, some 87, none⟩),
  (chars% "DARK_RED", .ix256 ⟨some 0x870000, some 88, none⟩),
  (chars% "DEEP_PINK_7", .ix256 ⟨some 0x87005f, some 89, none⟩),
  (chars% "DARK_MAGENTA_2", .ix256 ⟨some 0x870087, some 90, none⟩),
  (chars% "DARK_MAGENTA", .ix256 ⟨some 0x8700af, some 91, none⟩),
  (chars% "DARK_VIOLET_2", .ix256 ⟨some 0x8700d7, some 92, none⟩),
  (chars% "PURPLE_2", .ix256 ⟨some 0x8700ff, some 93, none⟩),
  (chars% "ORANGE_3", .ix256 ⟨some 0x875f00, some 94, none⟩),
  (chars% "LIGHT_PINK_3", .ix256 ⟨some 0x875f5f, some 95, none⟩),
  (chars% "PLUM_4", .ix256 ⟨some 0x875f87, some 96, none⟩),
  (chars% "MEDIUM_PURPLE_6", .ix256 ⟨some 0x875faf, some 97, none⟩),
  (chars% "MEDIUM_PURPLE_5", .ix256 ⟨some 0x875fd7, some 98, none⟩),
  (chars% "SLATE_BLUE_1", .ix256 ⟨some 0x875fff, some 99, none⟩),
  (chars% "YELLOW_6", .ix256 ⟨some 0x878700, some 100, none⟩),
  (chars% "WHEAT_4", .ix256 ⟨some 0x87875f, some 101, none⟩),
  (chars% "GREY_53", .ix256 ⟨some 0x878787, some 102, none⟩),
  (chars% "LIGHT_SLATE_GREY", .ix256 ⟨some 0x8787af, some 103, none⟩),
  (chars% "MEDIUM_PURPLE_4", .ix256 ⟨some 0x8787d7, some 104, none⟩),
  (chars% "LIGHT_SLATE_BLUE", .ix256 ⟨some 0x8787ff, some 105, none⟩),
  (chars% "YELLOW_4", .ix256 ⟨some 0x87af00, some 106, none⟩),
  (chars% "DARK_OLIVE_GREEN_6", .ix256 ⟨some 0x87af5f, some 107, none⟩),
  (chars% "DARK_SEA_GREEN_7", .ix256 ⟨some 0x87af87, some 108, none⟩),
  (chars% "LIGHT_SKY_BLUE_3", .ix256 ⟨some 0x87afaf, some 109, none⟩),
  (chars% "LIGHT_SKY_BLUE_2", .ix256 ⟨some 0x87afd7, some 110, none⟩),
  (chars% "SKY_BLUE_2", .ix256 ⟨some 0x87afff, some 111, none⟩),
  (chars% "CHARTREUSE_3", .ix256 ⟨some 0x87d700, some 112, none⟩),
  (chars% "DARK_OLIVE_GREEN_4", .ix256 ⟨some 0x87d75f, some 113, none⟩),
  (chars% "PALE_GREEN_3", .ix256 ⟨some 0x87d787, some 114, none⟩),
  (chars% "DARK_SEA_GREEN_5", .ix256 ⟨some 0x87d7af, some 115, none⟩),
  (chars% "DARK_SLATE_GRAY_3", .ix256 ⟨some 0x87d7d7, some 116, none⟩),
  (chars% "SKY_BLUE_1", .ix256 ⟨some 0x87d7ff, some 117, none⟩),
  (chars% "CHARTREUSE_1", .ix256 ⟨some 0x87ff00, some 118, none⟩),
  (chars% "LIGHT_GREEN_2", .ix256 ⟨some 0x87ff5f, some 119, none⟩),
  (chars% "LIGHT_GREEN", .ix256 ⟨some 0x87ff87, some 120, none⟩),
  (chars% "PALE_GREEN_1", .ix256 ⟨some 0x87ffaf, some 121, none⟩),
  (chars% "AQUAMARINE_1", .ix256 ⟨some 0x87ffd7, some 122, none⟩),
  (chars% "DARK_SLATE_GRAY_1", .ix256 ⟨some 0x87ffff, some 123, none⟩),
  (chars% "RED_4", .ix256 ⟨some 0xaf0000, some 124, none⟩),
  (chars% "DEEP_PINK_6", .ix256 ⟨some 0xaf005f, some 125, none⟩),
  (chars% "MEDIUM_VIOLET_RED", .ix256 ⟨some 0xaf0087, some 126, none⟩),
  (chars% "MAGENTA_6", .ix256 ⟨some 0xaf00af, some 127, none⟩),
  (chars% "DARK_VIOLET", .ix256 ⟨some 0xaf00d7, some 128, none⟩),
  (chars% "PURPLE", .ix256 ⟨some 0xaf00ff, some 129, none⟩),
  (chars% "DARK_ORANGE_3", .ix256 ⟨some 0xaf5f00, some 130, none⟩),
  (chars% "INDIAN_RED_4", .ix256 ⟨some 0xaf5f5f, some 131, none⟩),
  (chars% "HOT_PINK_5", .ix256 ⟨some 0xaf5f87, some 132, none⟩),
  (chars% "MEDIUM_ORCHID_4", .ix256 ⟨some 0xaf5faf, some 133, none⟩),
  (chars% "MEDIUM_ORCHID_3", .ix256 ⟨some 0xaf5fd7, some 134, none⟩),
  (chars% "MEDIUM_PURPLE_2", .ix256 ⟨some 0xaf5fff, some 135, none⟩),
  (chars% "DARK_GOLDENROD", .ix256 ⟨some 0xaf8700, some 136, none⟩),
  (chars% "LIGHT_SALMON_3", .ix256 ⟨some 0xaf875f, some 137, none⟩),
  (chars% "ROSY_BROWN", .ix256 ⟨some 0xaf8787, some 138, none⟩),
  (chars% "GREY_63", .ix256 ⟨some 0xaf87af, some 139, none⟩),
  (chars% "MEDIUM_PURPLE_3", .ix256 ⟨some 0xaf87d7, some 140, none⟩),
  (chars% "MEDIUM_PURPLE_1", .ix256 ⟨some 0xaf87ff, some 141, none⟩),
  (chars% "GOLD_3", .ix256 ⟨some 0xafaf00, some 142, none⟩),
  (chars% "DARK_KHAKI", .ix256 ⟨some 0xafaf5f, some 143, none⟩),
  (chars% "NAVAJO_WHITE_3", .ix256 ⟨some 0xafaf87, some 144, none⟩),
  (chars% "GREY_69", .ix256 ⟨some 0xafafaf, some 145, none⟩),
  (chars% "LIGHT_STEEL_BLUE_3", .ix256 ⟨some 0xafafd7, some 146, none⟩),
  (chars% "LIGHT_STEEL_BLUE_2", .ix256 ⟨some 0xafafff, some 147, none⟩),
  (chars% "YELLOW_5", .ix256 ⟨some 0xafd700, some 148, none⟩),
  (chars% "DARK_OLIVE_GREEN_5", .ix256 ⟨some 0xafd75f, some 149, none⟩),
  (chars% "DARK_SEA_GREEN_6", .ix256 ⟨some 0xafd787, some 150, none⟩),
  (chars% "DARK_SEA_GREEN_4", .ix256 ⟨some 0xafd7af, some 151, none⟩),
  (chars% "LIGHT_CYAN_3", .ix256 ⟨some 0xafd7d7, some 152, none⟩),
  (chars% "LIGHT_SKY_BLUE_1", .ix256 ⟨some 0xafd7ff, some 153, none⟩),
  (chars% "GREEN_YELLOW", .ix256 ⟨some 0xafff00, some 154, none⟩),
  (chars% "DARK_OLIVE_GREEN_3", .ix256 ⟨some 0xafff5f, some 155, none⟩),
  (chars% "PALE_GREEN_2", .ix256 ⟨some 0xafff87, some 156, none⟩),
  (chars% "DARK_SEA_GREEN_3", .ix256 ⟨some 0xafffaf, some 157, none⟩),
  (chars% "DARK_SEA_GREEN_1", .ix256 ⟨some 0xafffd7, some 158, none⟩),
  (chars% "PALE_TURQUOISE_1", .ix256 ⟨some 0xafffff, some 159, none⟩),
  (chars% "RED_3", .ix256 ⟨some 0xd70000, some 160, none⟩),
  (chars% "DEEP_PINK_5", .ix256 ⟨some 0xd7005f, some 161, none⟩),
  (chars% "DEEP_PINK_3", .ix256 ⟨some 0xd70087, some 162, none⟩),
  (chars% "MAGENTA_3", .ix256 ⟨some 0xd700af, some 163, none⟩),
  (chars% "MAGENTA_5", .ix256 ⟨some 0xd700d7, some 164, none⟩),
  (chars% "MAGENTA_4", .ix256 ⟨some 0xd700ff, some 165, none⟩),
  (chars% "DARK_ORANGE_2", .ix256 ⟨some 0xd75f00, some 166, none⟩),
  (chars% "INDIAN_RED_3", .ix256 ⟨some 0xd75f5f, some 167, none⟩),
  (chars% "HOT_PINK_4", .ix256 ⟨some 0xd75f87, some 168, none⟩),
  (chars% "HOT_PINK_3", .ix256 ⟨some 0xd75faf, some 169, none⟩),
  (chars% "ORCHID_3", .ix256 ⟨some 0xd75fd7, some 170, none⟩),
  (chars% "MEDIUM_ORCHID_2", .ix256 ⟨some 0xd75fff, some 171, none⟩),
  (chars% "ORANGE_2", .ix256 ⟨some 0xd78700, some 172, none⟩),
  (chars% "LIGHT_SALMON_2", .ix256 ⟨some 0xd7875f, some 173, none⟩),
  (chars% "LIGHT_PINK_2", .ix256 ⟨some 0xd78787, some 174, none⟩),
  (chars% "PINK_3", .ix256 ⟨some 0xd787af, some 175, none⟩),
  (chars% "PLUM_3", .ix256 ⟨some 0xd787d7, some 176, none⟩),
  (chars% "VIOLET", .ix256 ⟨some 0xd787ff, some 177, none⟩),
  (chars% "GOLD_2", .ix256 ⟨some 0xd7af00, some 178, none⟩),
  (chars% "LIGHT_GOLDENROD_5", .ix256 ⟨some 0xd7af5f, some 179, none⟩),
  (chars% "TAN", .ix256 ⟨some 0xd7af87, some 180, none⟩),
  (chars% "MISTY_ROSE_3", .ix256 ⟨some 0xd7afaf, some 181, none⟩),
  (chars% "THISTLE_3", .ix256 ⟨some 0xd7afd7, some 182, none⟩),
  (chars% "PLUM_2", .ix256 ⟨some 0xd7afff, some 183, none⟩),
  (chars% "YELLOW_3", .ix256 ⟨some 0xd7d700, some 184, none⟩),
  (chars% "KHAKI_3", .ix256 ⟨some 0xd7d75f, some 185, none⟩),
  (chars% "LIGHT_GOLDENROD_3", .ix256 ⟨some 0xd7d787, some 186, none⟩),
  (chars% "LIGHT_YELLOW_3", .ix256 ⟨some 0xd7d7af, some 187, none⟩),
  (chars% "GREY_84", .ix256 ⟨some 0xd7d7d7, some 188, none⟩),
  (chars% "LIGHT_STEEL_BLUE_1", .ix256 ⟨some 0xd7d7ff, some 189, none⟩),
  (chars% "YELLOW_2", .ix256 ⟨some 0xd7ff00, some 190, none⟩),
  (chars% "DARK_OLIVE_GREEN_2", .ix256 ⟨some 0xd7ff5f, some 191, none⟩),
  (chars% "DARK_OLIVE_GREEN_1", .ix256 ⟨some 0xd7ff87, some 192, none⟩),
  (chars% "DARK_SEA_GREEN_2", .ix256 ⟨some 0xd7ffaf, some 193, none⟩),
  (chars% "HONEYDEW_2", .ix256 ⟨some 0xd7ffd7, some 194, none⟩),
  (chars% "LIGHT_CYAN_1", .ix256 ⟨some 0xd7ffff, some 195, none⟩),
  (chars% "RED_1", .ix256 ⟨some 0xff0000, some 196, none⟩),
  (chars% "DEEP_PINK_4", .ix256 ⟨some 0xff005f, some 197, none⟩),
  (chars% "DEEP_PINK_2", .ix256 ⟨some 0xff0087, some 198, none⟩),
  (chars% "DEEP_PINK_1", .ix256 ⟨some 0xff00af, some 199, none⟩),
  (chars% "MAGENTA_2", .ix256 ⟨some 0xff00d7, some 200, none⟩),
  (chars% "MAGENTA_1", .ix256 ⟨some 0xff00ff, some 201, none⟩),
  (chars% "ORANGE_RED_1", .ix256 ⟨some 0xff5f00, some 202, none⟩),
  (chars% "INDIAN_RED_1", .ix256 ⟨some 0xff5f5f, some 203, none⟩),
  (chars% "INDIAN_RED_2", .ix256 ⟨some 0xff5f87, some 204, none⟩),
  (chars% "HOT_PINK_2", .ix256 ⟨some 0xff5faf, some 205, none⟩),
  (chars% "HOT_PINK", .ix256 ⟨some 0xff5fd7, some 206, none⟩),
  (chars% "MEDIUM_ORCHID_1", .ix256 ⟨some 0xff5fff, some 207, none⟩),
  (chars% "DARK_ORANGE", .ix256 ⟨some 0xff8700, some 208, none⟩),
  (chars% "SALMON_1", .ix256 ⟨some 0xff875f, some 209, none⟩),
  (chars% "LIGHT_CORAL", .ix256 ⟨some 0xff8787, some 210, none⟩),
  (chars% "PALE_VIOLET_RED_1", .ix256 ⟨some 0xff87af, some 211, none⟩),
  (chars% "ORCHID_2", .ix256 ⟨some 0xff87d7, some 212, none⟩),
  (chars% "ORCHID_1", .ix256 ⟨some 0xff87ff, some 213, none⟩),
  (chars% "ORANGE_1", .ix256 ⟨some 0xffaf00, some 214, none⟩),
  (chars% "SANDY_BROWN", .ix256 ⟨some 0xffaf5f, some 215, none⟩),
  (chars% "LIGHT_SALMON_1", .ix256 ⟨some 0xffaf87, some 216, none⟩),
  (chars% "LIGHT_PINK_1", .ix256 ⟨some 0xffafaf, some 217, none⟩),
  (chars% "PINK_1", .ix256 ⟨some 0xffafd7, some 218, none⟩),
  (chars% "PLUM_1", .ix256 ⟨some 0xffafff, some 219, none⟩),
  (chars% "GOLD_1", .ix256 ⟨some 0xffd700, some 220, none⟩),
  (chars% "LIGHT_GOLDENROD_4", .ix256 ⟨some 0xffd75f, some 221, none⟩),
  (chars% "LIGHT_GOLDENROD_2", .ix256 ⟨some 0xffd787, some 222, none⟩),
  (chars% "NAVAJO_WHITE_1", .ix256 ⟨some 0xffd7af, some 223, none⟩),
  (chars% "MISTY_ROSE_1", .ix256 ⟨some 0xffd7d7, some 224, none⟩),
  (chars% "THISTLE_1", .ix256 ⟨some 0xffd7ff, some 225, none⟩),
  (chars% "YELLOW_1", .ix256 ⟨some 0xffff00, some 226, none⟩),
  (chars% "LIGHT_GOLDENROD_1", .ix256 ⟨some 0xffff5f, some 227, none⟩),
  (chars% "KHAKI_1", .ix256 ⟨some 0xffff87, some 228, none⟩),
  (chars% "WHEAT_1", .ix256 ⟨some 0xffffaf, some 229, none⟩),
  (chars% "CORNSILK_1", .ix256 ⟨some 0xffffd7, some 230, none⟩),
  (chars% "GREY_100", .ix256 ⟨some 0xffffff, some 231, none⟩),
  (chars% "GREY_3", .ix256 ⟨some 0x080808, some 232, none⟩),
  (chars% "GREY_7", .ix256 ⟨some 0x121212, some 233, none⟩),
  (chars% "GREY_11", .ix256 ⟨some 0x1c1c1c, some 234, none⟩),
  (chars% "GREY_15", .ix256 ⟨some 0x262626, some 235, none⟩),
  (chars% "GREY_19", .ix256 ⟨some 0x303030, some 236, none⟩),
  (chars% "GREY_23", .ix256 ⟨some 0x3a3a3a, some 237, none⟩),
  (chars% "GREY_27", .ix256 ⟨some 0x444444, some 238, none⟩),
  (chars% "GREY_30", .ix256 ⟨some 0x4e4e4e, some 239, none⟩),
  (chars% "GREY_35", .ix256 ⟨some 0x585858, some 240, none⟩),
  (chars% "GREY_39", .ix256 ⟨some 0x626262, some 241, none⟩),
  (chars% "GREY_42", .ix256 ⟨some 0x6c6c6c, some 242, none⟩),
  (chars% "GREY_46", .ix256 ⟨some 0x767676, some 243, none⟩),
  (chars% "GREY_50", .ix256 ⟨some 0x808080, some 244, none⟩),
  (chars% "GREY_54", .ix256 ⟨some 0x8a8a8a, some 245, none⟩),
  (chars% "GREY_58", .ix256 ⟨some 0x949494, some 246, none⟩),
  (chars% "GREY_62", .ix256 ⟨some 0x9e9e9e, some 247, none⟩),
  (chars% "GREY_66", .ix256 ⟨some 0xa8a8a8, some 248, none⟩),
  (chars% "GREY_70", .ix256 ⟨some 0xb2b2b2, some 249, none⟩),
  (chars% "GREY_74", .ix256 ⟨some 0xbcbcbc, some 250, none⟩),
  (chars% "GREY_78", .ix256 ⟨some 0xc6c6c6, some 251, none⟩),
  (chars% "GREY_82", .ix256 ⟨some 0xd0d0d0, some 252, none⟩),
  (chars% "GREY_85", .ix256 ⟨some 0xdadada, some 253, none⟩),
  (chars% "GREY_89", .ix256 ⟨some 0xe4e4e4, some 254, none⟩),
  (chars% "GREY_93", .ix256 ⟨some 0xeeeeee, some 255, none⟩),
  (chars% "TRUE_BLACK", .rgb (some 0x000000)),
  (chars% "TRUE_WHITE", .rgb (some 0xffffff)),
  (chars% "RGB_GREY_1", .rgb (some 0x020202)),
  (chars% "RGB_GREY_2", .rgb (some 0x050505)),
  (chars% "RGB_GREY_3", .rgb (some 0x070707)),
  (chars% "RGB_GREY_4", .rgb (some 0x0a0a0a)),
  (chars% "RGB_GREY_5", .rgb (some 0x0c0c0c)),
  (chars% "RGB_GREY_6", .rgb (some 0x0f0f0f)),
  (chars% "RGB_GREY_7", .rgb (some 0x111111)),
  (chars% "RGB_GREY_8", .rgb (some 0x141414)),
  (chars% "RGB_GREY_9", .rgb (some 0x171717)),
  (chars% "RGB_GREY_10", .rgb (some 0x191919)),
  (chars% "RGB_GREY_15", .rgb (some 0x262626)),
  (chars% "RGB_GREY_20", .rgb (some 0x333333)),
  (chars% "RGB_GREY_25", .rgb (some 0x404040)),
  (chars% "RGB_GREY_30", .rgb (some 0x4c4c4c)),
  (chars% "RGB_GREY_35", .rgb (some 0x595959)),
  (chars% "RGB_GREY_40", .rgb (some 0x666666)),
  (chars% "RGB_GREY_45", .rgb (some 0x737373)),
  (chars% "RGB_GREY_50", .rgb (some 0x808080)),
  (chars% "RGB_GREY_55", .rgb (some 0x8c8c8c)),
  (chars% "RGB_GREY_60", .rgb (some 0x999999)),
  (chars% "RGB_GREY_65", .rgb (some 0xa6a6a6)),
  (chars% "RGB_GREY_70", .rgb (some 0xb3b3b3)),
  (chars% "RGB_GREY_75", .rgb (some 0xc0c0c0)),
  (chars% "RGB_GREY_80", .rgb (some 0xcccccc)),
  (chars% "RGB_GREY_85", .rgb (some 0xd9d9d9)),
  (chars% "RGB_GREY_90", .rgb (some 0xe6e6e6)),
  (chars% "RGB_GREY_91", .rgb (some 0xe8e8e8)),
  (chars% "RGB_GREY_92", .rgb (some 0xebebeb)),
  (chars% "RGB_GREY_93", .rgb (some 0xeeeeee)),
  (chars% "RGB_GREY_94", .rgb (some 0xf1f1f1)),
  (chars% "RGB_GREY_95", .rgb (some 0xf3f3f3)),
  (chars% "RGB_GREY_96", .rgb (some 0xf5f5f5)),
  (chars% "RGB_GREY_97", .rgb (some 0xf8f8f8)),
  (chars% "RGB_GREY_98", .rgb (some 0xfafafa)),
  (chars% "RGB_GREY_99", .rgb (some 0xfdfdfd))]

/-- `Colors.resolve` (pytermor/common.py:18-31). -/
def colorsResolve (name : Str) : Except AnsiErr PColor :=
  match colorTable.find? fun e => e.1 == pyUpper name with
  | some e => .ok e.2
  | none => .error .key

/-- A colour as an argument.  Simplified: integers are not negative. -/
inductive ColorArg where
  | color (c : PColor)
  | int (n : Nat)
  | name (s : Str)
  | none

/-- `Style._resolve_color` (pytermor/render.py:293-307).  The result of `Colors.resolve` is a `Color`. -/
def ColorArg.resolve : ColorArg → (nullable : Bool) → Except AnsiErr (Option PColor)
  | .color c, _ => .ok (some c)
  | .int n, _ => .ok (some (.rgb (some n)))
  | .name s, _ => match colorsResolve s with
    | .ok c => .ok (some c)
    | .error e => .error e
  | .none, nullable => .ok (if nullable then Option.none else some noopRgb)

/-- `Style(inherit, fg, bg, …)` (pytermor/render.py:226-254); `a` has the other arguments. -/
def newStyleNamed (inherit : Option PStyle) (fg bg : ColorArg) (a : StyleArgs) : Except AnsiErr PStyle :=
  match fg.resolve true with
  | .error e => .error e
  | .ok f => match bg.resolve true with
    | .error e => .error e
    | .ok b => .ok (newStyle inherit { a with fg := f, bg := b })

/-- The setter of `Style.fg` (pytermor/render.py:336-338). -/
def PStyle.setFg (s : PStyle) (c : ColorArg) : Except AnsiErr PStyle :=
  match c.resolve false with
  | .error e => .error e
  | .ok f => .ok { s with fg := f.getD noopRgb }

/-- The setter of `Style.bg` (pytermor/render.py:340-342). -/
def PStyle.setBg (s : PStyle) (c : ColorArg) : Except AnsiErr PStyle :=
  match c.resolve false with
  | .error e => .error e
  | .ok b => .ok { s with bg := b.getD noopRgb }

/-- `Text(string, style)` with the name of a colour as style (pytermor/render.py:163-168). -/
def textNamed (string : Str) (name : Str) : Except AnsiErr TextRun :=
  match newStyleNamed none (.name name) .none {} with
  | .error e => .error e
  | .ok s => .ok ⟨string, some s⟩

end Kolombos
