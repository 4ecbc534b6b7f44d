/-! GENERATED by tools/gen_charsets.py from /repo/internal/data; do not edit. -/
set_option autoImplicit false
set_option maxRecDepth 100000
namespace Verif.Data

/-- internal/data/*.go: `Charset` of every locale without a parent. -/
def charsets : List (List Char × List Char) :=
  [(['a', 'f'], ['b', 'c', 'd', 'e', 'f', 'g', 'h', 'i', 'j', 'k', 'l', 'n', 'o', 'r', 's', 't', 'u', 'v', 'w', 'y', 'z', 'ô']),
   (['a', 'g', 'q'], ['c', 'd', 'e', 'f', 'g', 'h', 'i', 'k', 'l', 'n', 'o', 'r', 's', 't', 'u', 'w', 'x', 'y', 'z', 'à', 'è', 'î', 'ò', 'ù', 'û', 'ā', 'ŋ', 'ū', 'ǎ', 'ǔ', 'ɔ', 'ɛ', 'ɨ', 'ʉ', 'ʔ', (Char.ofNat 0x300), (Char.ofNat 0x302), (Char.ofNat 0x304)]),
   (['a', 'k'], ['-', 'b', 'c', 'd', 'e', 'f', 'g', 'h', 'i', 'k', 'l', 'n', 'o', 'r', 's', 't', 'u', 'w', 'x', 'y', 'z', 'ɔ', 'ɛ']),
   (['a', 'm'], ['c', 'g', 't', 'u', 'z', 'ሁ', 'ህ', 'ለ', 'ላ', 'ል', 'ሐ', 'ሑ', 'መ', 'ሙ', 'ሚ', 'ማ', 'ሜ', 'ም', 'ሣ', 'ረ', 'ሩ', 'ሪ', 'ሬ', 'ር', 'ሰ', 'ሳ', 'ሴ', 'ስ', 'ቀ', 'ቂ', 'ቃ', 'ቅ', 'በ', 'ቡ', 'ባ', 'ብ', 'ቬ', 'ቴ', 'ት', 'ቶ', 'ች', 'ነ', 'ና', 'ን', 'ኖ', 'ኞ', 'አ', 'ኤ', 'እ', 'ኦ', 'ከ', 'ክ', 'ወ', 'ዋ', 'ው', 'ዓ', 'ዕ', 'ዚ', 'ዛ', 'የ', 'ዩ', 'ያ', 'ይ', 'ደ', 'ዲ', 'ዳ', 'ድ', 'ጁ', 'ጃ', 'ገ', 'ጥ', 'ፈ', 'ፌ', 'ፕ']),
   (['a', 'r'], ['c', 'g', 't', 'u', 'z', 'ء', 'آ', 'أ', 'إ', 'ئ', 'ا', 'ب', 'ة', 'ت', 'ث', 'ج', 'ح', 'خ', 'د', 'ذ', 'ر', 'س', 'ش', 'ص', 'ض', 'ط', 'ع', 'غ', 'ـ', 'ف', 'ق', 'ك', 'ل', 'م', 'ن', 'ه', 'و', 'ي', 'ً']),
   (['a', 's'], ['c', 'e', 'g', 'h', 'i', 'k', 'l', 'n', 'o', 'r', 's', 't', 'u', 'w', 'x', 'y', 'z', 'অ', 'আ', 'ই', 'এ', 'ও', 'ক', 'গ', 'ঘ', 'ঙ', 'চ', 'ছ', 'জ', 'ট', 'ড', 'ণ', 'ত', 'দ', 'ধ', 'ন', 'প', 'ফ', 'ব', 'ভ', 'ম', 'ল', 'শ', 'ষ', 'স', 'হ', 'া', 'ি', 'ী', 'ু', 'ূ', 'ৃ', 'ে', 'ৈ', 'ো', '্', 'ৰ', 'ৱ']),
   (['a', 's', 'a'], ['b', 'c', 'd', 'e', 'f', 'g', 'h', 'i', 'j', 'k', 'l', 'n', 'o', 'r', 's', 't', 'u', 'v', 'w', 'x', 'y', 'z']),
   (['a', 's', 't'], ['b', 'c', 'd', 'e', 'f', 'g', 'h', 'i', 'l', 'n', 'o', 'r', 's', 't', 'u', 'v', 'x', 'y', 'z', 'á', 'é', 'í', 'ñ', 'ü']),
   (['a', 'z', '-', 'C', 'y', 'r', 'l'], ['c', 'd', 'e', 'g', 'h', 'i', 'k', 'l', 'n', 'o', 'r', 's', 't', 'u', 'w', 'x', 'y', 'z', 'а', 'б', 'в', 'г', 'д', 'е', 'з', 'и', 'й', 'к', 'л', 'м', 'н', 'о', 'п', 'р', 'с', 'т', 'у', 'ф', 'х', 'ч', 'ш', 'ы', 'ј', 'ү', 'ҹ', 'ә']),
   (['a', 'z', '-', 'L', 'a', 't', 'n'], ['b', 'c', 'd', 'e', 'f', 'g', 'h', 'i', 'k', 'l', 'n', 'o', 'r', 's', 't', 'u', 'v', 'x', 'y', 'z', 'ç', 'ü', 'ı', 'ş', 'ə']),
   (['a', 'z'], ['b', 'c', 'd', 'e', 'f', 'g', 'h', 'i', 'k', 'l', 'n', 'o', 'r', 's', 't', 'u', 'v', 'x', 'y', 'z', 'ç', 'ü', 'ı', 'ş', 'ə']),
   (['b', 'a', 's'], ['b', 'c', 'd', 'e', 'g', 'h', 'i', 'j', 'k', 'l', 'n', 'o', 'r', 's', 't', 'u', 'w', 'x', 'y', 'z', 'à', 'è', 'ê', 'ì', 'ò', 'ô', 'ù', 'û', 'ń', 'ŋ', 'ɓ', 'ɔ', 'ɛ', (Char.ofNat 0x300), (Char.ofNat 0x302)]),
   (['b', 'e'], ['c', 'g', 't', 'u', 'z', 'а', 'б', 'в', 'г', 'д', 'е', 'ж', 'з', 'и', 'й', 'к', 'л', 'м', 'н', 'о', 'п', 'р', 'с', 'т', 'у', 'х', 'ц', 'ч', 'ы', 'ь', 'э', 'ю', 'я', 'ё', 'і', 'ў']),
   (['b', 'e', 'm'], ['b', 'c', 'd', 'e', 'f', 'g', 'h', 'i', 'j', 'k', 'l', 'n', 'o', 'r', 's', 't', 'u', 'v', 'w', 'x', 'y', 'z']),
   (['b', 'e', 'z'], ['b', 'c', 'd', 'e', 'f', 'g', 'h', 'i', 'j', 'k', 'l', 'n', 'o', 'r', 's', 't', 'u', 'v', 'w', 'x', 'y', 'z']),
   (['b', 'g'], ['c', 'g', 't', 'u', 'z', 'а', 'б', 'в', 'г', 'д', 'е', 'з', 'и', 'й', 'к', 'л', 'м', 'н', 'о', 'п', 'р', 'с', 'т', 'у', 'ф', 'х', 'ц', 'ч', 'щ', 'ъ', 'ю', 'я']),
   (['b', 'm'], ['b', 'c', 'd', 'e', 'f', 'g', 'h', 'i', 'j', 'k', 'l', 'n', 'o', 'r', 's', 't', 'u', 'w', 'x', 'y', 'z', 'ɔ', 'ɛ']),
   (['b', 'n'], ['c', 'g', 't', 'u', 'z', 'ং', 'অ', 'আ', 'ই', 'এ', 'ক', 'খ', 'গ', 'ঘ', 'ঙ', 'চ', 'ছ', 'জ', 'ট', 'ড', 'ণ', 'ত', 'দ', 'ধ', 'ন', 'প', 'ফ', 'ব', 'ভ', 'ম', 'য', 'র', 'ল', 'শ', 'ষ', 'স', 'হ', '়', 'া', 'ি', 'ী', 'ু', 'ৃ', 'ে', 'ো', '্', 'ৎ']),
   (['b', 'o'], ['c', 'e', 'g', 'h', 'i', 'k', 'l', 'n', 'o', 'r', 's', 't', 'u', 'w', 'x', 'y', 'z', '་', '།', '༠', '༡', '༢', '༣', '༤', '༥', '༦', '༧', '༨', '༩', 'ཁ', 'ག', 'ང', 'ཅ', 'ཆ', 'ཉ', 'ད', 'ན', 'པ', 'ཕ', 'བ', 'མ', 'ཚ', 'ཞ', 'ཟ', 'འ', 'ར', 'ལ', 'ས', 'ི', 'ུ', 'ེ', 'ོ', 'ྐ', 'ྒ', 'ྔ', 'ྤ', 'ྱ', 'ྲ', 'ླ', 'ྷ']),
   (['b', 'r'], ['-', 'b', 'c', 'd', 'e', 'g', 'h', 'i', 'k', 'l', 'n', 'o', 'r', 's', 't', 'u', 'v', 'w', 'y', 'z', 'ñ']),
   (['b', 'r', 'x'], ['/', 'c', 'e', 'g', 'h', 'i', 'k', 'l', 'n', 'o', 'r', 's', 't', 'u', 'w', 'x', 'y', 'z', 'ं', 'अ', 'आ', 'इ', 'ए', 'ख', 'ग', 'ज', 'थ', 'द', 'न', 'फ', 'ब', 'म', 'य', 'र', 'ल', 'व', 'स', 'ह', '़', 'ा', 'ि', 'ी', 'ु', 'े', 'ै', 'ो', '्']),
   (['b', 's', '-', 'C', 'y', 'r', 'l'], ['c', 'e', 'g', 'h', 'i', 'n', 'o', 'r', 's', 't', 'u', 'w', 'z', 'а', 'б', 'в', 'г', 'д', 'е', 'и', 'к', 'л', 'м', 'н', 'о', 'п', 'р', 'с', 'т', 'у', 'ф', 'ц', 'ч', 'ш', 'ј', 'љ', 'ћ']),
   (['b', 's', '-', 'L', 'a', 't', 'n'], ['b', 'c', 'd', 'e', 'f', 'g', 'h', 'i', 'j', 'k', 'l', 'n', 'o', 'r', 's', 't', 'u', 'v', 'z', 'ć', 'č', 'š']),
   (['b', 's'], ['b', 'c', 'd', 'e', 'f', 'g', 'h', 'i', 'j', 'k', 'l', 'n', 'o', 'r', 's', 't', 'u', 'v', 'z', 'ć', 'č', 'š']),
   (['c', 'a'], ['-', 'b', 'c', 'd', 'e', 'f', 'g', 'h', 'i', 'j', 'l', 'n', 'o', 'r', 's', 't', 'u', 'v', 'x', 'y', 'z', 'à', 'ç', 'ò', 'ú']),
   (['c', 'e'], ['c', 'e', 'g', 'h', 'i', 'n', 'o', 'r', 's', 't', 'u', 'w', 'z', 'а', 'б', 'в', 'г', 'д', 'е', 'и', 'й', 'к', 'л', 'м', 'н', 'о', 'п', 'р', 'с', 'т', 'у', 'ф', 'х', 'ч', 'ш', 'ь', 'ю', 'я', 'ӏ']),
   (['c', 'g', 'g'], ['/', 'b', 'c', 'd', 'e', 'g', 'h', 'i', 'j', 'k', 'l', 'n', 'o', 'r', 's', 't', 'u', 'w', 'x', 'y', 'z']),
   (['c', 'h', 'r'], ['c', 'g', 't', 'u', 'z', 'ᏸ', 'ᏹ', 'ᏼ', 'ꭰ', 'ꭱ', 'ꭲ', 'ꭴ', 'ꭵ', 'ꭶ', 'ꭷ', 'ꭸ', 'ꭹ', 'ꭺ', 'ꭻ', 'ꭼ', 'ꭽ', 'ꭿ', 'ꮂ', 'ꮄ', 'ꮅ', 'ꮆ', 'ꮇ', 'ꮈ', 'ꮎ', 'ꮑ', 'ꮒ', 'ꮓ', 'ꮕ', 'ꮖ', 'ꮘ', 'ꮙ', 'ꮚ', 'ꮜ', 'ꮝ', 'ꮞ', 'ꮠ', 'ꮡ', 'ꮢ', 'ꮣ', 'ꮤ', 'ꮥ', 'ꮧ', 'ꮨ', 'ꮩ', 'ꮪ', 'ꮫ', 'ꮯ', 'ꮲ', 'ꮵ', 'ꮶ', 'ꮷ', 'ꮼ', 'ꮿ']),
   (['c', 'k', 'b'], ['c', 'd', 'e', 'g', 'h', 'i', 'k', 'l', 'n', 'o', 'r', 's', 't', 'u', 'w', 'x', 'y', 'z', 'ئ', 'ا', 'ب', 'ت', 'ج', 'ح', 'د', 'ر', 'ز', 'س', 'ش', 'ل', 'م', 'ن', 'و', 'ي', 'پ', 'چ', 'ک', 'ھ', 'ی', 'ێ', 'ە']),
   (['c', 's'], ['b', 'c', 'd', 'e', 'g', 'h', 'i', 'j', 'k', 'l', 'n', 'o', 'r', 's', 't', 'u', 'v', 'y', 'z', 'á', 'í', 'ú', 'ý', 'č', 'ě', 'ř', 'š', 'ů']),
   (['c', 'y'], ['b', 'c', 'd', 'e', 'f', 'g', 'h', 'i', 'l', 'n', 'o', 'r', 's', 't', 'u', 'w', 'y', 'z']),
   (['d', 'a'], ['b', 'c', 'd', 'e', 'f', 'g', 'i', 'j', 'k', 'l', 'n', 'o', 'r', 's', 't', 'u', 'v', 'z', 'å', 'æ', 'ø']),
   (['d', 'a', 'v'], ['b', 'c', 'd', 'e', 'f', 'g', 'h', 'i', 'j', 'k', 'l', 'n', 'o', 'r', 's', 't', 'u', 'w', 'x', 'y', 'z']),
   (['d', 'e'], ['b', 'c', 'd', 'e', 'f', 'g', 'h', 'i', 'j', 'k', 'l', 'n', 'o', 'r', 's', 't', 'u', 'v', 'w', 'z', 'ä', 'ü']),
   (['d', 'j', 'e'], ['b', 'c', 'd', 'e', 'f', 'g', 'h', 'i', 'j', 'k', 'l', 'n', 'o', 'r', 's', 't', 'u', 'w', 'x', 'y', 'z', 'õ', 'ŋ', 'ž']),
   (['d', 's', 'b'], ['b', 'c', 'd', 'e', 'f', 'g', 'h', 'i', 'j', 'k', 'l', 'n', 'o', 'r', 's', 't', 'u', 'w', 'y', 'z', 'ó', 'ě', 'ł', 'ń', 'ś', 'ź']),
   (['d', 'u', 'a'], ['b', 'c', 'd', 'e', 'g', 'h', 'i', 'k', 'l', 'n', 'o', 'r', 's', 't', 'u', 'w', 'x', 'y', 'z', 'á', 'é', 'í', 'ó', 'ú', 'ŋ', 'ɓ', 'ɔ', 'ɗ', 'ɛ', (Char.ofNat 0x301), (Char.ofNat 0x304)]),
   (['d', 'y', 'o'], ['b', 'c', 'd', 'e', 'f', 'g', 'h', 'i', 'j', 'k', 'l', 'n', 'o', 'r', 's', 't', 'u', 'v', 'w', 'x', 'y', 'z', 'é', 'ó', 'ú', 'ŋ']),
   (['d', 'z'], ['c', 'e', 'g', 'h', 'i', 'k', 'l', 'n', 'o', 'r', 's', 't', 'u', 'w', 'x', 'y', 'z', '་', '༠', '༡', '༢', '༣', '༤', '༥', '༦', '༧', '༨', '༩', 'ཁ', 'ག', 'ང', 'ཅ', 'ཆ', 'ཉ', 'ད', 'ན', 'པ', 'ཕ', 'བ', 'མ', 'ཙ', 'ཚ', 'ཝ', 'ཞ', 'ཟ', 'འ', 'ར', 'ལ', 'ས', 'ཱ', 'ི', 'ུ', 'ེ', 'ོ', 'ྐ', 'ྒ', 'ྔ', 'ྤ', 'ྱ', 'ྲ', 'ླ', 'ྷ']),
   (['e', 'b', 'u'], ['b', 'c', 'd', 'e', 'g', 'h', 'i', 'j', 'k', 'l', 'n', 'o', 'r', 's', 't', 'u', 'w', 'x', 'y', 'z', 'ĩ', 'ũ']),
   (['e', 'e'], ['b', 'c', 'd', 'e', 'f', 'g', 'h', 'i', 'k', 'l', 'n', 'o', 'r', 's', 't', 'u', 'v', 'w', 'x', 'y', 'z', 'ĩ', 'ŋ', 'ƒ', 'ɔ', 'ɖ', 'ɛ', 'ɣ']),
   (['e', 'l'], ['c', 'g', 't', 'u', 'z', 'ΐ', 'ά', 'έ', 'ή', 'ί', 'α', 'β', 'γ', 'δ', 'ε', 'η', 'θ', 'ι', 'κ', 'λ', 'μ', 'ν', 'ο', 'π', 'ρ', 'ς', 'σ', 'τ', 'υ', 'φ', 'χ', 'ω', 'ό', 'ύ', 'ώ']),
   (['e', 'n'], ['b', 'c', 'd', 'e', 'f', 'g', 'h', 'i', 'j', 'k', 'l', 'n', 'o', 'r', 's', 't', 'u', 'v', 'w', 'x', 'y', 'z']),
   (['e', 'o'], ['b', 'c', 'd', 'e', 'f', 'g', 'h', 'i', 'j', 'k', 'l', 'n', 'o', 'r', 's', 't', 'u', 'v', 'w', 'x', 'y', 'z', 'ĉ', 'ĵ', 'ŭ']),
   (['e', 's'], ['b', 'c', 'd', 'e', 'f', 'g', 'h', 'i', 'j', 'l', 'n', 'o', 'r', 's', 't', 'u', 'v', 'x', 'y', 'z', 'á', 'é', 'í', 'ñ', 'ó']),
   (['e', 't'], ['b', 'c', 'd', 'e', 'g', 'h', 'i', 'j', 'k', 'l', 'n', 'o', 'r', 's', 't', 'u', 'v', 'z', 'ä', 'ü']),
   (['e', 'u'], ['b', 'c', 'd', 'e', 'g', 'h', 'i', 'k', 'l', 'n', 'o', 'r', 's', 't', 'u', 'x', 'z']),
   (['e', 'w', 'o'], ['b', 'c', 'd', 'e', 'f', 'g', 'h', 'i', 'k', 'l', 'n', 'o', 'r', 's', 't', 'u', 'w', 'x', 'y', 'z', 'á', 'é', 'í', 'ó', 'ú', 'ǒ', 'ɔ', 'ə', 'ɛ', (Char.ofNat 0x300), (Char.ofNat 0x301), (Char.ofNat 0x30c)]),
   (['f', 'a'], ['c', 'g', 't', 'u', 'z', 'آ', 'ئ', 'ا', 'ب', 'ت', 'ث', 'ج', 'د', 'ذ', 'ر', 'ز', 'س', 'ش', 'ظ', 'ع', 'ف', 'ق', 'ل', 'م', 'ن', 'ه', 'و', 'ي', 'ٔ', 'پ', 'چ', 'ژ', 'ک', 'گ', 'ی', (Char.ofNat 0x200c)]),
   (['f', 'f'], ['-', 'b', 'c', 'd', 'e', 'g', 'h', 'i', 'j', 'k', 'l', 'n', 'o', 'r', 's', 't', 'u', 'w', 'x', 'y', 'z', 'ñ', 'ŋ', 'ƴ', 'ɓ', 'ɗ']),
   (['f', 'i'], ['c', 'd', 'e', 'g', 'h', 'i', 'j', 'k', 'l', 'n', 'o', 'r', 's', 't', 'u', 'v', 'y', 'z', 'ä']),
   (['f', 'i', 'l'], ['b', 'c', 'd', 'e', 'g', 'h', 'i', 'k', 'l', 'n', 'o', 'r', 's', 't', 'u', 'w', 'y', 'z']),
   (['f', 'o'], ['b', 'c', 'd', 'e', 'f', 'g', 'h', 'i', 'j', 'k', 'l', 'n', 'o', 'r', 's', 't', 'u', 'v', 'y', 'z', 'á', 'æ', 'í', 'ð', 'ó', 'ø', 'ú', 'ý']),
   (['f', 'r'], ['-', 'b', 'c', 'd', 'e', 'f', 'g', 'h', 'i', 'j', 'l', 'n', 'o', 'r', 's', 't', 'u', 'v', 'y', 'z', 'è', 'é', 'û']),
   (['f', 'u', 'r'], ['b', 'c', 'd', 'e', 'f', 'g', 'h', 'i', 'j', 'k', 'l', 'n', 'o', 'r', 's', 't', 'u', 'v', 'w', 'x', 'y', 'z', 'â', 'ç', 'ê', 'ì', 'î', 'û']),
   (['f', 'y'], ['b', 'c', 'd', 'e', 'f', 'g', 'h', 'i', 'j', 'k', 'l', 'n', 'o', 'r', 's', 't', 'u', 'v', 'w', 'y', 'z', 'ú']),
   (['g', 'a'], ['b', 'c', 'd', 'e', 'f', 'g', 'h', 'i', 'l', 'n', 'o', 'r', 's', 't', 'u', 'z', 'á', 'é', 'í', 'ó', 'ú']),
   (['g', 'd'], ['-', 'b', 'c', 'd', 'e', 'f', 'g', 'h', 'i', 'l', 'n', 'o', 'r', 's', 't', 'u', 'z', 'à', 'è', 'ì', 'ò', 'ù']),
   (['g', 'l'], ['b', 'c', 'd', 'e', 'f', 'g', 'h', 'i', 'l', 'n', 'o', 'r', 's', 't', 'u', 'v', 'x', 'z', 'á', 'é', 'í', 'ñ', 'ó']),
   (['g', 's', 'w'], ['b', 'c', 'd', 'e', 'f', 'g', 'h', 'i', 'j', 'k', 'l', 'n', 'o', 'r', 's', 't', 'u', 'v', 'w', 'x', 'y', 'z', 'ä', 'ü']),
   (['g', 'u'], ['c', 'g', 't', 'u', 'z', 'ં', 'અ', 'આ', 'ઈ', 'એ', 'ઑ', 'ક', 'ગ', 'ચ', 'જ', 'ટ', 'ઠ', 'ડ', 'ણ', 'ત', 'દ', 'ધ', 'ન', 'પ', 'ફ', 'બ', 'મ', 'ય', 'ર', 'લ', 'ળ', 'વ', 'શ', 'ષ', 'સ', 'હ', 'ા', 'િ', 'ી', 'ુ', 'ૂ', 'ે', 'ો', '્']),
   (['g', 'u', 'z'], ['b', 'c', 'd', 'e', 'f', 'g', 'h', 'i', 'j', 'k', 'l', 'n', 'o', 'r', 's', 't', 'u', 'w', 'x', 'y', 'z']),
   (['g', 'v'], ['-', 'b', 'c', 'd', 'e', 'f', 'g', 'h', 'i', 'j', 'k', 'l', 'n', 'o', 'r', 's', 't', 'u', 'v', 'w', 'x', 'y', 'z']),
   (['h', 'a'], ['b', 'c', 'd', 'e', 'f', 'g', 'h', 'i', 'j', 'k', 'l', 'n', 'o', 'r', 's', 't', 'u', 'w', 'x', 'y', 'z', 'ƙ']),
   (['h', 'a', 'w'], ['c', 'd', 'e', 'g', 'h', 'i', 'k', 'l', 'n', 'o', 'r', 's', 't', 'u', 'w', 'x', 'y', 'z', 'ā']),
   (['h', 'e'], ['-', 'c', 'g', 't', 'u', 'z', 'א', 'ב', 'ג', 'ד', 'ה', 'ו', 'ז', 'ח', 'ט', 'י', 'ך', 'כ', 'ל', 'ם', 'מ', 'ן', 'נ', 'ס', 'ע', 'פ', 'ץ', 'צ', 'ק', 'ר', 'ש', 'ת', '׳', '״']),
   (['h', 'i'], ['c', 'g', 't', 'u', 'z', 'ं', 'अ', 'आ', 'इ', 'ई', 'क', 'ग', 'घ', 'च', 'छ', 'ज', 'ट', 'ड', 'त', 'द', 'ध', 'न', 'प', 'फ', 'ब', 'म', 'य', 'र', 'ल', 'व', 'श', 'ष', 'स', 'ह', '़', 'ा', 'ि', 'ी', 'ु', 'ू', 'े', 'ै', 'ो', '्', '॰']),
   (['h', 'r'], ['b', 'c', 'd', 'e', 'g', 'h', 'i', 'j', 'k', 'l', 'n', 'o', 'r', 's', 't', 'u', 'v', 'z', 'ć', 'č', 'š', 'ž']),
   (['h', 's', 'b'], ['b', 'c', 'd', 'e', 'f', 'g', 'h', 'i', 'j', 'k', 'l', 'n', 'o', 'r', 's', 't', 'u', 'w', 'y', 'z', 'ó', 'č', 'ě', 'ł', 'ń', 'ř', 'š', 'ź']),
   (['h', 'u'], ['-', 'b', 'c', 'd', 'e', 'f', 'g', 'h', 'i', 'j', 'k', 'l', 'n', 'o', 'r', 's', 't', 'u', 'v', 'x', 'z', 'á', 'é', 'ó', 'ö', 'ú', 'ü', 'ő']),
   (['h', 'y'], ['c', 'g', 't', 'u', 'z', 'ա', 'բ', 'գ', 'դ', 'ե', 'ը', 'թ', 'ժ', 'ի', 'լ', 'խ', 'կ', 'հ', 'ղ', 'մ', 'յ', 'ն', 'շ', 'ո', 'չ', 'պ', 'ջ', 'ս', 'վ', 'տ', 'ր', 'ց', 'ւ', 'փ', 'ք', 'օ']),
   (['i', 'd'], ['b', 'c', 'd', 'e', 'f', 'g', 'h', 'i', 'j', 'k', 'l', 'n', 'o', 'r', 's', 't', 'u', 'v', 'y', 'z']),
   (['i', 'g'], ['b', 'c', 'd', 'e', 'f', 'g', 'h', 'i', 'j', 'k', 'l', 'n', 'o', 'r', 's', 't', 'u', 'v', 'w', 'x', 'y', 'z', 'ị', 'ọ', 'ụ']),
   (['i', 'i'], ['c', 'e', 'g', 'h', 'i', 'k', 'l', 'n', 'o', 'r', 's', 't', 'u', 'w', 'x', 'y', 'z', 'ꀃ', 'ꀋ', 'ꁯ', 'ꃆ', 'ꃏ', 'ꃘ', 'ꄑ', 'ꄮ', 'ꅔ', 'ꆏ', 'ꆪ', 'ꇖ', 'ꇙ', 'ꈉ', 'ꈎ', 'ꈬ', 'ꉆ', 'ꉈ', 'ꉬ', 'ꊂ', 'ꊪ', 'ꊰ', 'ꋍ', 'ꋒ', 'ꌕ', 'ꎸ', 'ꏂ', 'ꏃ', 'ꑋ', 'ꑍ', 'ꑭ']),
   (['i', 's'], ['b', 'c', 'd', 'e', 'f', 'g', 'h', 'i', 'j', 'k', 'l', 'n', 'o', 'r', 's', 't', 'u', 'v', 'z', 'á', 'æ', 'í', 'ð', 'ó', 'ö', 'ú', 'þ']),
   (['i', 't'], ['b', 'c', 'd', 'e', 'f', 'g', 'h', 'i', 'l', 'n', 'o', 'r', 's', 't', 'u', 'v', 'z', 'ì']),
   (['j', 'a'], ['c', 'g', 't', 'u', 'z', '々', 'か', 'て', 'で', 'の', 'ら', 'カ', 'ヶ', '一', '七', '三', '九', '二', '五', '今', '以', '先', '八', '六', '内', '分', '前', '十', '午', '去', '四', '土', '在', '年', '後', '日', '明', '昨', '時', '曜', '月', '木', '水', '火', '現', '秒', '約', '翌', '週', '金', '間']),
   (['j', 'g', 'o'], ['b', 'c', 'd', 'e', 'f', 'g', 'h', 'i', 'j', 'k', 'l', 'n', 'o', 'r', 's', 't', 'u', 'w', 'x', 'y', 'z', 'á', 'â', 'ú', 'ŋ', 'ɔ', 'ɛ', (Char.ofNat 0x301), (Char.ofNat 0x30c), 'ꞌ']),
   (['j', 'm', 'c'], ['b', 'c', 'd', 'e', 'f', 'g', 'h', 'i', 'j', 'k', 'l', 'n', 'o', 'r', 's', 't', 'u', 'v', 'w', 'x', 'y', 'z']),
   (['k', 'a'], ['c', 'g', 't', 'u', 'z', 'ა', 'ბ', 'გ', 'დ', 'ე', 'ვ', 'ზ', 'თ', 'ი', 'კ', 'ლ', 'მ', 'ნ', 'ო', 'პ', 'რ', 'ს', 'ტ', 'უ', 'ქ', 'ღ', 'შ', 'წ', 'ხ']),
   (['k', 'a', 'b'], ['-', 'b', 'c', 'd', 'e', 'f', 'g', 'h', 'i', 'k', 'l', 'n', 'o', 'r', 's', 't', 'u', 'w', 'x', 'y', 'z', 'ǧ', 'ɣ', 'ḍ', 'ṛ', 'ẓ']),
   (['k', 'a', 'm'], ['b', 'c', 'd', 'e', 'g', 'h', 'i', 'k', 'l', 'n', 'o', 'r', 's', 't', 'u', 'w', 'x', 'y', 'z', 'ĩ', 'ũ']),
   (['k', 'd', 'e'], ['b', 'c', 'd', 'e', 'f', 'g', 'h', 'i', 'j', 'k', 'l', 'n', 'o', 'r', 's', 't', 'u', 'v', 'w', 'x', 'y', 'z']),
   (['k', 'e', 'a'], ['-', 'b', 'c', 'd', 'e', 'f', 'g', 'h', 'i', 'j', 'k', 'l', 'n', 'o', 'r', 's', 't', 'u', 'v', 'w', 'z', 'á', 'ó']),
   (['k', 'h', 'q'], ['b', 'c', 'd', 'e', 'f', 'g', 'h', 'i', 'j', 'k', 'l', 'n', 'o', 'r', 's', 't', 'u', 'w', 'x', 'y', 'z', 'õ', 'ŋ', 'ž']),
   (['k', 'i'], ['-', 'b', 'c', 'd', 'e', 'g', 'h', 'i', 'j', 'k', 'l', 'n', 'o', 'r', 's', 't', 'u', 'w', 'x', 'y', 'z', 'ĩ', 'ũ']),
   (['k', 'k'], ['c', 'g', 't', 'u', 'z', 'а', 'б', 'г', 'д', 'е', 'ж', 'з', 'и', 'й', 'к', 'л', 'м', 'н', 'о', 'п', 'р', 'с', 'т', 'у', 'ш', 'ы', 'і', 'ғ', 'қ', 'ң', 'ү', 'ұ', 'ә', 'ө']),
   (['k', 'l'], ['b', 'c', 'd', 'e', 'f', 'g', 'h', 'i', 'j', 'k', 'l', 'n', 'o', 'r', 's', 't', 'u', 'v', 'w', 'x', 'y', 'z']),
   (['k', 'l', 'n'], ['b', 'c', 'd', 'e', 'g', 'h', 'i', 'k', 'l', 'n', 'o', 'r', 's', 't', 'u', 'w', 'x', 'y', 'z']),
   (['k', 'm'], ['c', 'g', 't', 'u', 'z', 'ក', 'ខ', 'គ', 'ង', 'ច', 'ឆ', 'ញ', 'ដ', 'ត', 'ថ', 'ទ', 'ធ', 'ន', 'ប', 'ព', 'ភ', 'ម', 'យ', 'រ', 'ល', 'វ', 'ស', 'ហ', 'ឡ', 'អ', 'ឥ', 'ឧ', 'ា', 'ិ', 'ី', 'ុ', 'ូ', 'េ', 'ែ', 'ៃ', 'ោ', 'ៅ', 'ំ', 'ះ', 'ៈ', '៉', '៍', '័', '្', (Char.ofNat 0x200b)]),
   (['k', 'n'], ['c', 'g', 't', 'u', 'z', 'ಂ', 'ಅ', 'ಆ', 'ಇ', 'ಈ', 'ಏ', 'ಕ', 'ಗ', 'ಚ', 'ಜ', 'ಟ', 'ಡ', 'ತ', 'ದ', 'ಧ', 'ನ', 'ಪ', 'ಫ', 'ಬ', 'ಭ', 'ಮ', 'ರ', 'ಲ', 'ಳ', 'ವ', 'ಶ', 'ಷ', 'ಸ', 'ಹ', 'ಾ', 'ಿ', 'ು', 'ೂ', 'ೆ', 'ೇ', 'ೈ', 'ೋ', '್', 'ೕ', 'ೖ']),
   (['k', 'o'], ['c', 'g', 't', 'u', 'z', '간', '금', '난', '내', '년', '늘', '다', '달', '목', '번', '분', '수', '시', '어', '오', '올', '요', '월', '음', '이', '일', '작', '재', '전', '제', '주', '지', '초', '토', '해', '현', '화', '후']),
   (['k', 'o', 'k'], ['c', 'd', 'e', 'g', 'h', 'i', 'k', 'l', 'n', 'o', 'r', 's', 't', 'u', 'w', 'x', 'y', 'z', 'ं', 'आ', 'ए', 'ओ', 'क', 'ग', 'च', 'ज', 'ट', 'ड', 'त', 'द', 'ध', 'न', 'प', 'फ', 'ब', 'म', 'य', 'र', 'ल', 'ळ', 'व', 'श', 'स', 'ह', 'ा', 'ि', 'ी', 'ु', 'ू', 'े', 'ै', 'ो', '्']),
   (['k', 's'], ['c', 'e', 'g', 'h', 'i', 'k', 'l', 'n', 'o', 'r', 's', 't', 'u', 'w', 'x', 'y', 'z', 'آ', 'ؤ', 'ا', 'ب', 'ت', 'ج', 'د', 'ر', 'ز', 'س', 'ف', 'ل', 'م', 'ن', 'و', 'َ', 'ُ', 'ِ', 'ٔ', 'ٕ', 'ٗ', 'ٚ', 'ٛ', 'ٮ', 'ٲ', 'ٹ', 'پ', 'چ', 'ڑ', 'ژ', 'ک', 'گ', 'ھ', 'ہ', 'ۄ', 'ی', '۪']),
   (['k', 's', 'b'], ['b', 'c', 'd', 'e', 'f', 'g', 'h', 'i', 'j', 'k', 'l', 'n', 'o', 'r', 's', 't', 'u', 'v', 'w', 'x', 'y', 'z']),
   (['k', 's', 'f'], ['b', 'c', 'd', 'e', 'f', 'g', 'h', 'i', 'j', 'k', 'l', 'n', 'o', 'r', 's', 't', 'u', 'w', 'x', 'y', 'z', 'á', 'í', 'ó', 'ú', 'ŋ', 'ǝ', 'ɔ', 'ɛ', (Char.ofNat 0x301)]),
   (['k', 's', 'h'], ['b', 'c', 'd', 'e', 'f', 'g', 'h', 'i', 'j', 'k', 'l', 'n', 'o', 'r', 's', 't', 'u', 'v', 'w', 'x', 'z', 'ß', 'ä', 'ö', 'ü']),
   (['k', 'w'], ['b', 'c', 'd', 'e', 'g', 'h', 'i', 'k', 'l', 'n', 'o', 'r', 's', 't', 'u', 'v', 'w', 'x', 'y', 'z']),
   (['k', 'y'], ['c', 'g', 't', 'u', 'z', 'а', 'б', 'в', 'г', 'д', 'е', 'ж', 'з', 'и', 'й', 'к', 'л', 'м', 'н', 'о', 'п', 'р', 'с', 'т', 'у', 'ф', 'ч', 'ш', 'ы', 'ь', 'э', 'ю', 'я', 'ң', 'ү', 'ӊ', 'ө']),
   (['l', 'a', 'g'], ['b', 'c', 'd', 'e', 'f', 'g', 'h', 'i', 'j', 'k', 'l', 'n', 'o', 'r', 's', 't', 'u', 'v', 'w', 'x', 'y', 'z', 'á', 'é', 'í', 'ó', 'ú', 'ɨ', 'ʉ']),
   (['l', 'b'], ['b', 'c', 'd', 'e', 'f', 'g', 'h', 'i', 'j', 'k', 'l', 'n', 'o', 'r', 's', 't', 'u', 'v', 'w', 'z', 'ä', 'é', 'ë']),
   (['l', 'g'], ['b', 'c', 'd', 'e', 'f', 'g', 'h', 'i', 'j', 'k', 'l', 'n', 'o', 'r', 's', 't', 'u', 'v', 'w', 'x', 'y', 'z']),
   (['l', 'k', 't'], ['-', 'c', 'e', 'g', 'h', 'i', 'k', 'l', 'n', 'o', 'r', 's', 't', 'u', 'w', 'y', 'z', 'á', 'é', 'í', 'ó', 'ú', 'č', 'ŋ', 'š', 'ž', 'ǧ', 'ȟ']),
   (['l', 'n'], ['b', 'c', 'd', 'e', 'f', 'g', 'h', 'i', 'k', 'l', 'n', 'o', 'r', 's', 't', 'u', 'v', 'w', 'x', 'y', 'z', 'á', 'â', 'é', 'í', 'ó', 'ú', 'ɔ', 'ɛ', (Char.ofNat 0x301), (Char.ofNat 0x30c)]),
   (['l', 'o'], ['c', 'g', 't', 'u', 'z', 'ກ', 'ຄ', 'ງ', 'ຈ', 'ຊ', 'ຍ', 'ດ', 'ຕ', 'ຖ', 'ທ', 'ນ', 'ປ', 'ພ', 'ມ', 'ລ', 'ວ', 'ສ', 'ຫ', 'ອ', 'ະ', 'ັ', 'າ', 'ິ', 'ີ', 'ຶ', 'ື', 'ຸ', 'ົ', 'ຼ', 'ຽ', 'ເ', 'ແ', 'ໂ', '່', '້', 'ໍ']),
   (['l', 'r', 'c'], ['c', 'd', 'e', 'f', 'g', 'h', 'i', 'k', 'l', 'n', 'o', 'r', 's', 't', 'u', 'w', 'x', 'y', 'z', 'آ', 'أ', 'ئ', 'ا', 'ت', 'ث', 'ج', 'د', 'ر', 'ز', 'س', 'ش', 'ص', 'ف', 'ق', 'ل', 'م', 'ن', 'و', 'ي', 'ٙ', 'پ', 'ڤ', 'ک', 'گ', 'ھ', 'ی', 'ە']),
   (['l', 't'], ['b', 'c', 'd', 'e', 'g', 'h', 'i', 'j', 'k', 'l', 'n', 'o', 'r', 's', 't', 'u', 'v', 'y', 'z', 'ą', 'č', 'ė', 'ę', 'į', 'š', 'ū', 'ž']),
   (['l', 'u'], ['b', 'c', 'd', 'e', 'f', 'g', 'h', 'i', 'j', 'k', 'l', 'n', 'o', 'r', 's', 't', 'u', 'v', 'w', 'x', 'y', 'z', 'à', 'è', 'ì', 'ò', 'ù']),
   (['l', 'u', 'o'], ['b', 'c', 'd', 'e', 'g', 'h', 'i', 'j', 'k', 'l', 'n', 'o', 'r', 's', 't', 'u', 'w', 'x', 'y', 'z']),
   (['l', 'u', 'y'], ['b', 'c', 'd', 'e', 'f', 'g', 'h', 'i', 'j', 'k', 'l', 'n', 'o', 'r', 's', 't', 'u', 'v', 'w', 'x', 'y', 'z']),
   (['l', 'v'], ['b', 'c', 'd', 'e', 'f', 'g', 'h', 'i', 'j', 'k', 'l', 'n', 'o', 'r', 's', 't', 'u', 'v', 'z', 'ā', 'ē', 'ī', 'ļ', 'š', 'ū']),
   (['m', 'a', 's'], ['b', 'c', 'd', 'e', 'g', 'h', 'i', 'j', 'k', 'l', 'n', 'o', 'r', 's', 't', 'u', 'w', 'x', 'y', 'z', 'à', 'á', 'â', 'è', 'é', 'ê', 'ì', 'í', 'î', 'ó', 'ú', 'ē', 'ī', 'ŋ', 'ū', 'ɔ', 'ɛ', 'ɨ', 'ʉ', (Char.ofNat 0x301)]),
   (['m', 'e', 'r'], ['b', 'c', 'd', 'e', 'f', 'g', 'h', 'i', 'j', 'k', 'l', 'n', 'o', 'r', 's', 't', 'u', 'v', 'w', 'x', 'y', 'z', 'ĩ', 'ũ']),
   (['m', 'f', 'e'], ['b', 'c', 'd', 'e', 'f', 'g', 'h', 'i', 'k', 'l', 'n', 'o', 'r', 's', 't', 'u', 'v', 'w', 'x', 'y', 'z']),
   (['m', 'g'], ['b', 'c', 'd', 'e', 'f', 'g', 'h', 'i', 'j', 'k', 'l', 'n', 'o', 'r', 's', 't', 'u', 'v', 'w', 'x', 'y', 'z']),
   (['m', 'g', 'h'], ['b', 'c', 'd', 'e', 'g', 'h', 'i', 'j', 'k', 'l', 'n', 'o', 'r', 's', 't', 'u', 'w', 'x', 'y', 'z']),
   (['m', 'g', 'o'], ['b', 'c', 'd', 'e', 'f', 'g', 'h', 'i', 'k', 'l', 'n', 'o', 'r', 's', 't', 'u', 'w', 'x', 'y', 'z', 'à', 'è', 'ì', 'ò', 'ù', 'ŋ', 'ɔ', 'ə', (Char.ofNat 0x300)]),
   (['m', 'k'], ['c', 'g', 't', 'u', 'z', 'а', 'б', 'в', 'г', 'д', 'е', 'и', 'к', 'л', 'м', 'н', 'о', 'п', 'р', 'с', 'т', 'у', 'ф', 'ц', 'ч', 'ј']),
   (['m', 'l'], ['c', 'g', 't', 'u', 'z', 'ം', 'അ', 'ആ', 'ഇ', 'ഈ', 'ഏ', 'ഒ', 'ഓ', 'ക', 'ഗ', 'ങ', 'ച', 'ജ', 'ഞ', 'ട', 'ഡ', 'ണ', 'ത', 'ദ', 'ധ', 'ന', 'പ', 'ഫ', 'ബ', 'മ', 'യ', 'ര', 'റ', 'ല', 'ള', 'ഴ', 'വ', 'ശ', 'ഷ', 'സ', 'ാ', 'ി', 'ു', 'ൂ', 'െ', 'േ', 'ൈ', 'ൊ', 'ോ', '്', 'ൺ', 'ൻ', 'ർ', 'ൽ', 'ൾ', (Char.ofNat 0x200c)]),
   (['m', 'n'], ['-', 'c', 'g', 't', 'u', 'z', 'а', 'б', 'в', 'г', 'д', 'е', 'ж', 'з', 'и', 'й', 'к', 'л', 'м', 'н', 'о', 'п', 'р', 'с', 'т', 'у', 'х', 'ц', 'ч', 'ш', 'э', 'я', 'ё', 'ү', 'ө']),
   (['m', 'r'], ['c', 'g', 't', 'u', 'z', 'ं', 'आ', 'उ', 'ए', 'ऑ', 'क', 'ग', 'च', 'ज', 'ट', 'ठ', 'ड', 'ढ', 'त', 'द', 'ध', 'न', 'प', 'फ', 'ब', 'म', 'य', 'र', 'ल', 'ळ', 'व', 'श', 'ष', 'स', 'ह', 'ा', 'ि', 'ी', 'ु', 'ू', 'े', 'ै', 'ो', '्']),
   (['m', 's'], ['b', 'c', 'd', 'e', 'f', 'g', 'h', 'i', 'j', 'k', 'l', 'n', 'o', 'r', 's', 't', 'u', 'v', 'z']),
   (['m', 't'], ['-', 'b', 'c', 'd', 'e', 'f', 'g', 'h', 'i', 'j', 'k', 'l', 'n', 'o', 'r', 's', 't', 'u', 'v', 'w', 'x', 'z', 'ċ', 'ġ', 'ħ']),
   (['m', 'u', 'a'], ['/', 'b', 'c', 'd', 'e', 'f', 'g', 'h', 'i', 'j', 'k', 'l', 'n', 'o', 'r', 's', 't', 'u', 'w', 'x', 'y', 'z', 'ã', 'ĩ', 'ŋ', 'ǝ', 'ɓ', 'ɗ']),
   (['m', 'y'], ['c', 'g', 't', 'u', 'z', 'က', 'ခ', 'ဂ', 'င', 'စ', 'ဇ', 'ည', 'တ', 'ဒ', 'ဓ', 'န', 'ပ', 'ဖ', 'ဗ', 'ဘ', 'မ', 'ယ', 'ရ', 'လ', 'ဝ', 'သ', 'ဟ', 'အ', 'ဤ', 'ဧ', 'ဩ', 'ါ', 'ာ', 'ိ', 'ီ', 'ု', 'ူ', 'ေ', 'ဲ', 'ံ', '့', 'း', '္', '်', 'ျ', 'ြ', 'ွ', 'ှ']),
   (['m', 'z', 'n'], ['c', 'd', 'e', 'f', 'g', 'h', 'i', 'n', 'o', 'r', 's', 't', 'u', 'w', 'z', 'آ', 'ئ', 'ا', 'ب', 'ت', 'ث', 'د', 'ر', 'ز', 'س', 'ع', 'ف', 'ق', 'ل', 'م', 'ن', 'ه', 'و', 'ي', 'َ', 'ِ', 'پ', 'ژ', 'ک', 'گ', 'ی']),
   (['n', 'a', 'q'], ['b', 'c', 'd', 'e', 'f', 'g', 'h', 'i', 'j', 'k', 'l', 'n', 'o', 'r', 's', 't', 'u', 'v', 'w', 'x', 'y', 'z', 'â', 'ô', 'û', 'ǀ', 'ǁ', 'ǂ', 'ǃ']),
   (['n', 'b'], ['b', 'c', 'd', 'e', 'f', 'g', 'i', 'j', 'k', 'l', 'n', 'o', 'r', 's', 't', 'u', 'v', 'z', 'å', 'ø']),
   (['n', 'd'], ['b', 'c', 'd', 'e', 'f', 'g', 'h', 'i', 'j', 'k', 'l', 'n', 'o', 'r', 's', 't', 'u', 'v', 'w', 'x', 'y', 'z']),
   (['n', 'e'], ['c', 'g', 't', 'u', 'z', 'अ', 'आ', 'इ', 'ई', 'उ', 'क', 'ग', 'घ', 'ङ', 'च', 'ज', 'ट', 'ड', 'ण', 'त', 'ध', 'न', 'प', 'फ', 'ब', 'भ', 'म', 'य', 'र', 'ल', 'व', 'श', 'ष', 'स', 'ह', 'ा', 'ि', 'ी', 'ु', 'ू', 'े', 'ो', '्']),
   (['n', 'l'], ['b', 'c', 'd', 'e', 'f', 'g', 'i', 'j', 'k', 'l', 'n', 'o', 'r', 's', 't', 'u', 'v', 'w', 'z']),
   (['n', 'm', 'g'], ['b', 'c', 'd', 'e', 'f', 'g', 'h', 'i', 'k', 'l', 'n', 'o', 'r', 's', 't', 'u', 'v', 'w', 'x', 'y', 'z', 'á', 'â', 'í', 'ó', 'ö', 'ú', 'ā', 'ń', 'ǔ', 'ɔ', 'ɛ', (Char.ofNat 0x301)]),
   (['n', 'n'], ['b', 'c', 'd', 'e', 'f', 'g', 'h', 'i', 'j', 'k', 'l', 'n', 'o', 'r', 's', 't', 'u', 'v', 'w', 'x', 'y', 'z', 'å', 'ø']),
   (['n', 'n', 'h'], ['b', 'c', 'd', 'e', 'f', 'g', 'h', 'i', 'j', 'k', 'l', 'n', 'o', 'r', 's', 't', 'u', 'v', 'w', 'x', 'y', 'z', 'à', 'á', 'è', 'é', 'í', 'ò', 'ó', 'ù', 'ú', 'ÿ', 'ŋ', 'ǔ', 'ɔ', 'ɛ', 'ʉ', (Char.ofNat 0x300), (Char.ofNat 0x301), (Char.ofNat 0x30c), 'ẅ']),
   (['n', 'u', 's'], ['b', 'c', 'd', 'e', 'g', 'h', 'i', 'j', 'k', 'l', 'n', 'o', 'r', 's', 't', 'u', 'w', 'x', 'y', 'z', 'ä', 'ŋ', 'ɔ', 'ɛ', (Char.ofNat 0x331)]),
   (['n', 'y', 'n'], ['/', 'b', 'c', 'd', 'e', 'g', 'h', 'i', 'j', 'k', 'l', 'n', 'o', 'r', 's', 't', 'u', 'w', 'x', 'y', 'z']),
   (['o', 'm'], ['b', 'c', 'd', 'e', 'f', 'g', 'h', 'i', 'j', 'k', 'l', 'n', 'o', 'r', 's', 't', 'u', 'w', 'x', 'y', 'z']),
   (['o', 'r'], ['c', 'd', 'e', 'g', 'h', 'i', 'k', 'l', 'n', 'o', 'r', 's', 't', 'u', 'w', 'x', 'y', 'z', 'ଅ', 'ଆ', 'ଇ', 'କ', 'ଗ', 'ଙ', 'ଚ', 'ଜ', 'ଟ', 'ଡ', 'ଧ', 'ନ', 'ପ', 'ଫ', 'ବ', 'ଭ', 'ମ', 'ର', 'ଲ', 'ଳ', 'ଶ', 'ଷ', 'ସ', 'ା', 'ି', 'ୀ', 'ୁ', 'ୃ', 'େ', 'ୋ', '୍']),
   (['o', 's'], ['c', 'e', 'g', 'h', 'i', 'k', 'l', 'n', 'o', 'r', 's', 't', 'u', 'w', 'x', 'y', 'z', 'а', 'б', 'в', 'г', 'д', 'е', 'з', 'и', 'й', 'к', 'л', 'м', 'н', 'о', 'п', 'р', 'с', 'т', 'у', 'ф', 'х', 'ц', 'ъ', 'ы', 'ь', 'ю', 'я', 'ӕ']),
   (['p', 'a', '-', 'A', 'r', 'a', 'b'], ['c', 'd', 'e', 'g', 'h', 'i', 'k', 'l', 'n', 'o', 'r', 's', 't', 'u', 'w', 'x', 'y', 'z', 'ئ', 'ا', 'ب', 'ت', 'ج', 'د', 'ر', 'س', 'ع', 'ف', 'ل', 'م', 'ن', 'و', 'ي', 'ُ', 'ٹ', 'پ', 'چ', 'ک', 'گ', 'ھ', 'ہ', 'ی']),
   (['p', 'a', '-', 'G', 'u', 'r', 'u'], ['c', 'g', 't', 'u', 'z', 'ਅ', 'ਆ', 'ਇ', 'ਈ', 'ਐ', 'ਕ', 'ਗ', 'ਘ', 'ਚ', 'ਛ', 'ਜ', 'ਟ', 'ਣ', 'ਤ', 'ਦ', 'ਧ', 'ਨ', 'ਪ', 'ਫ', 'ਬ', 'ਭ', 'ਮ', 'ਰ', 'ਲ', 'ਵ', 'ਸ', 'ਹ', '਼', 'ਾ', 'ਿ', 'ੀ', 'ੁ', 'ੂ', 'ੇ', 'ੈ', 'ੋ', '੍', 'ੰ', 'ੱ']),
   (['p', 'a'], ['c', 'g', 't', 'u', 'z', 'ਅ', 'ਆ', 'ਇ', 'ਈ', 'ਐ', 'ਕ', 'ਗ', 'ਘ', 'ਚ', 'ਛ', 'ਜ', 'ਟ', 'ਣ', 'ਤ', 'ਦ', 'ਧ', 'ਨ', 'ਪ', 'ਫ', 'ਬ', 'ਭ', 'ਮ', 'ਰ', 'ਲ', 'ਵ', 'ਸ', 'ਹ', '਼', 'ਾ', 'ਿ', 'ੀ', 'ੁ', 'ੂ', 'ੇ', 'ੈ', 'ੋ', '੍', 'ੰ', 'ੱ']),
   (['p', 'l'], ['b', 'c', 'd', 'e', 'g', 'i', 'j', 'k', 'l', 'n', 'o', 'r', 's', 't', 'u', 'w', 'y', 'z', 'ą', 'ę', 'ł', 'ń', 'ś', 'ź']),
   (['p', 's'], ['c', 'd', 'e', 'g', 'h', 'i', 'k', 'l', 'n', 'o', 'r', 's', 't', 'u', 'w', 'x', 'y', 'z', 'ا', 'ب', 'ت', 'ج', 'د', 'ر', 'س', 'ش', 'ع', 'غ', 'ف', 'ل', 'م', 'ن', 'ه', 'و', 'ي', 'پ', 'چ', 'ک', 'ګ', 'ی', 'ۍ', (Char.ofNat 0x200c)]),
   (['p', 't'], ['-', 'b', 'c', 'd', 'e', 'f', 'g', 'h', 'i', 'j', 'l', 'n', 'o', 'r', 's', 't', 'u', 'v', 'x', 'z', 'á', 'ã', 'ç', 'ê', 'ó']),
   (['q', 'u'], ['b', 'c', 'd', 'e', 'g', 'h', 'i', 'j', 'k', 'l', 'n', 'o', 'r', 's', 't', 'u', 'v', 'w', 'x', 'y', 'z', 'á', 'é']),
   (['r', 'm'], ['b', 'c', 'd', 'e', 'f', 'g', 'h', 'i', 'k', 'l', 'n', 'o', 'r', 's', 't', 'u', 'v', 'w', 'x', 'y', 'z']),
   (['r', 'n'], [',', 'b', 'c', 'd', 'e', 'g', 'h', 'i', 'j', 'k', 'l', 'n', 'o', 'r', 's', 't', 'u', 'w', 'x', 'y', 'z']),
   (['r', 'o'], ['b', 'c', 'd', 'e', 'f', 'g', 'h', 'i', 'j', 'l', 'n', 'o', 'r', 's', 't', 'u', 'v', 'z', 'â', 'î', 'ă', 'ț']),
   (['r', 'o', 'f'], ['b', 'c', 'd', 'e', 'f', 'g', 'h', 'i', 'j', 'k', 'l', 'n', 'o', 'r', 's', 't', 'u', 'w', 'x', 'y', 'z']),
   (['r', 'u'], ['c', 'g', 't', 'u', 'z', 'а', 'б', 'в', 'г', 'д', 'е', 'з', 'и', 'й', 'к', 'л', 'м', 'н', 'о', 'п', 'р', 'с', 'т', 'у', 'ф', 'ц', 'ч', 'ш', 'щ', 'ы', 'ь', 'э', 'ю', 'я']),
   (['r', 'w'], ['b', 'c', 'd', 'e', 'g', 'h', 'i', 'k', 'l', 'n', 'o', 'r', 's', 't', 'u', 'w', 'x', 'y', 'z']),
   (['r', 'w', 'k'], ['b', 'c', 'd', 'e', 'f', 'g', 'h', 'i', 'j', 'k', 'l', 'n', 'o', 'r', 's', 't', 'u', 'v', 'w', 'x', 'y', 'z']),
   (['s', 'a', 'h'], ['c', 'e', 'g', 'h', 'i', 'n', 'o', 'r', 's', 't', 'u', 'z', 'а', 'б', 'г', 'д', 'и', 'й', 'к', 'л', 'м', 'н', 'о', 'п', 'р', 'с', 'т', 'у', 'х', 'ч', 'ы', 'ь', 'э', 'ҕ', 'ҥ', 'ү', 'һ', 'ө']),
   (['s', 'a', 'q'], ['b', 'c', 'd', 'e', 'g', 'h', 'i', 'k', 'l', 'n', 'o', 'r', 's', 't', 'u', 'w', 'x', 'y', 'z']),
   (['s', 'b', 'p'], ['b', 'c', 'd', 'e', 'g', 'h', 'i', 'j', 'k', 'l', 'n', 'o', 'r', 's', 't', 'u', 'w', 'x', 'y', 'z']),
   (['s', 'e'], ['b', 'c', 'd', 'e', 'g', 'h', 'i', 'j', 'k', 'l', 'n', 'o', 'r', 's', 't', 'u', 'v', 'w', 'x', 'y', 'z', 'á', 'č', 'đ', 'ŋ']),
   (['s', 'e', 'h'], ['b', 'c', 'd', 'e', 'f', 'g', 'h', 'i', 'j', 'k', 'l', 'n', 'o', 'r', 's', 't', 'u', 'v', 'w', 'x', 'y', 'z']),
   (['s', 'e', 's'], ['b', 'c', 'd', 'e', 'f', 'g', 'h', 'i', 'j', 'k', 'l', 'n', 'o', 'r', 's', 't', 'u', 'w', 'x', 'y', 'z', 'õ', 'ŋ', 'ž']),
   (['s', 'g'], ['-', 'b', 'c', 'd', 'e', 'f', 'g', 'h', 'i', 'k', 'l', 'n', 'o', 'r', 's', 't', 'u', 'v', 'w', 'x', 'y', 'z', 'â', 'ä', 'ê', 'î', 'ï', 'ô', 'ö', 'ù', 'û', 'ü']),
   (['s', 'h', 'i', '-', 'L', 'a', 't', 'n'], ['b', 'c', 'd', 'e', 'f', 'g', 'h', 'i', 'j', 'k', 'l', 'n', 'o', 'r', 's', 't', 'u', 'w', 'x', 'y', 'z', 'ɣ', 'ḍ', 'ṛ', 'ṣ']),
   (['s', 'h', 'i', '-', 'T', 'f', 'n', 'g'], ['c', 'e', 'g', 'h', 'i', 'k', 'l', 'n', 'o', 'r', 's', 't', 'u', 'w', 'x', 'y', 'z', 'ⴰ', 'ⴱ', 'ⴳ', 'ⴷ', 'ⴹ', 'ⴼ', 'ⴽ', 'ⵉ', 'ⵊ', 'ⵍ', 'ⵎ', 'ⵏ', 'ⵓ', 'ⵔ', 'ⵕ', 'ⵖ', 'ⵙ', 'ⵚ', 'ⵛ', 'ⵜ', 'ⵡ', 'ⵢ', 'ⵣ']),
   (['s', 'h', 'i'], ['c', 'e', 'g', 'h', 'i', 'k', 'l', 'n', 'o', 'r', 's', 't', 'u', 'w', 'x', 'y', 'z', 'ⴰ', 'ⴱ', 'ⴳ', 'ⴷ', 'ⴹ', 'ⴼ', 'ⴽ', 'ⵉ', 'ⵊ', 'ⵍ', 'ⵎ', 'ⵏ', 'ⵓ', 'ⵔ', 'ⵕ', 'ⵖ', 'ⵙ', 'ⵚ', 'ⵛ', 'ⵜ', 'ⵡ', 'ⵢ', 'ⵣ']),
   (['s', 'i'], ['c', 'g', 't', 'u', 'z', 'අ', 'ඉ', 'ඊ', 'ඔ', 'ක', 'ග', 'ඟ', 'ජ', 'ට', 'ත', 'ද', 'න', 'ඳ', 'ප', 'බ', 'ම', 'ය', 'ර', 'ල', 'ව', 'ෂ', 'ස', 'හ', 'ළ', '්', 'ා', 'ැ', 'ි', 'ු', 'ූ', 'ෙ', 'ේ', 'ො', 'ෝ', (Char.ofNat 0x200d)]),
   (['s', 'k'], ['b', 'c', 'd', 'e', 'f', 'g', 'h', 'i', 'j', 'k', 'l', 'n', 'o', 'r', 's', 't', 'u', 'v', 'y', 'z', 'á', 'í', 'ó', 'ú', 'ý', 'č', 'ľ', 'ň', 'š', 'ž']),
   (['s', 'l'], ['b', 'c', 'd', 'e', 'f', 'g', 'h', 'i', 'j', 'k', 'l', 'n', 'o', 'r', 's', 't', 'u', 'v', 'z', 'č', 'š']),
   (['s', 'm', 'n'], ['b', 'c', 'd', 'e', 'g', 'h', 'i', 'j', 'k', 'l', 'n', 'o', 'r', 's', 't', 'u', 'v', 'w', 'x', 'y', 'z', 'á', 'â', 'č', 'đ', 'ŋ']),
   (['s', 'n'], ['b', 'c', 'd', 'e', 'g', 'h', 'i', 'k', 'l', 'n', 'o', 'r', 's', 't', 'u', 'v', 'w', 'x', 'y', 'z']),
   (['s', 'o'], ['b', 'c', 'd', 'e', 'f', 'g', 'h', 'i', 'j', 'k', 'l', 'n', 'o', 'r', 's', 't', 'u', 'w', 'x', 'y', 'z']),
   (['s', 'q'], ['c', 'd', 'e', 'g', 'h', 'i', 'j', 'k', 'l', 'n', 'o', 'r', 's', 't', 'u', 'v', 'z', 'ë']),
   (['s', 'r', '-', 'C', 'y', 'r', 'l'], ['c', 'g', 't', 'u', 'z', 'а', 'б', 'в', 'г', 'д', 'е', 'и', 'к', 'л', 'м', 'н', 'о', 'п', 'р', 'с', 'т', 'у', 'ф', 'ц', 'ч', 'ш', 'ј', 'љ', 'ћ']),
   (['s', 'r', '-', 'L', 'a', 't', 'n'], ['b', 'c', 'd', 'e', 'f', 'g', 'i', 'j', 'k', 'l', 'n', 'o', 'r', 's', 't', 'u', 'v', 'z', 'ć', 'č', 'š']),
   (['s', 'r'], ['c', 'g', 't', 'u', 'z', 'а', 'б', 'в', 'г', 'д', 'е', 'и', 'к', 'л', 'м', 'н', 'о', 'п', 'р', 'с', 'т', 'у', 'ф', 'ц', 'ч', 'ш', 'ј', 'љ', 'ћ']),
   (['s', 'v'], ['b', 'c', 'd', 'e', 'f', 'g', 'h', 'i', 'j', 'k', 'l', 'n', 'o', 'r', 's', 't', 'u', 'v', 'z', 'ä', 'å', 'ö']),
   (['s', 'w'], ['b', 'c', 'd', 'e', 'f', 'g', 'h', 'i', 'j', 'k', 'l', 'n', 'o', 'r', 's', 't', 'u', 'v', 'w', 'y', 'z']),
   (['t', 'a'], ['c', 'g', 't', 'u', 'z', 'அ', 'ஆ', 'இ', 'ஏ', 'ஒ', 'க', 'ங', 'ச', 'ஜ', 'ஞ', 'ட', 'ண', 'த', 'ந', 'ன', 'ப', 'ம', 'ய', 'ர', 'ற', 'ல', 'ள', 'ழ', 'வ', 'ஸ', 'ா', 'ி', 'ு', 'ூ', 'ெ', 'ே', 'ை', 'ோ', '்']),
   (['t', 'e'], ['c', 'g', 't', 'u', 'z', 'ం', 'అ', 'ఆ', 'ఈ', 'ఏ', 'క', 'గ', 'చ', 'జ', 'ట', 'డ', 'త', 'ద', 'ధ', 'న', 'ప', 'ఫ', 'బ', 'మ', 'ర', 'ల', 'ళ', 'వ', 'శ', 'ష', 'స', 'ా', 'ి', 'ు', 'ూ', 'ె', 'ే', 'ై', 'ో', '్']),
   (['t', 'e', 'o'], ['b', 'c', 'd', 'e', 'g', 'h', 'i', 'j', 'k', 'l', 'n', 'o', 'r', 's', 't', 'u', 'w', 'x', 'y', 'z']),
   (['t', 'h'], ['c', 'g', 't', 'u', 'z', 'ก', 'ข', 'ค', 'ง', 'จ', 'ช', 'ฎ', 'ฏ', 'ณ', 'ด', 'ต', 'ถ', 'ท', 'ธ', 'น', 'บ', 'ป', 'พ', 'ภ', 'ม', 'ย', 'ร', 'ฤ', 'ล', 'ว', 'ศ', 'ษ', 'ส', 'ห', 'อ', 'ะ', 'ั', 'า', 'ิ', 'ี', 'ื', 'ุ', 'เ', 'แ', 'โ', 'ใ', '่', '้', '์']),
   (['t', 'i'], ['c', 'd', 'e', 'g', 'h', 'i', 'k', 'l', 'n', 'o', 'r', 's', 't', 'u', 'w', 'x', 'y', 'z', 'ሆ', 'ለ', 'ሉ', 'ሓ', 'ሕ', 'መ', 'ሙ', 'ሚ', 'ም', 'ሠ', 'ረ', 'ሪ', 'ር', 'ሰ', 'ሳ', 'ስ', 'ቀ', 'ቅ', 'በ', 'ቡ', 'ቢ', 'ቦ', 'ተ', 'ቲ', 'ታ', 'ት', 'ኃ', 'ነ', 'ኑ', 'ን', 'ከ', 'ካ', 'ዓ', 'ዕ', 'ዝ', 'ያ', 'ይ', 'ዳ', 'ድ', 'ጉ', 'ጋ', 'ግ', 'ጥ']),
   (['t', 'l'], ['b', 'c', 'd', 'e', 'g', 'h', 'i', 'k', 'l', 'n', 'o', 'r', 's', 't', 'u', 'w', 'y', 'z']),
   (['t', 'o'], ['c', 'e', 'f', 'g', 'h', 'i', 'k', 'l', 'n', 'o', 'r', 's', 't', 'u', 'v', 'z', 'á', 'é', 'í', 'ó', 'ú', 'ā', 'ē', 'ī', 'ō', 'ū']),
   (['t', 'r'], ['b', 'c', 'd', 'e', 'f', 'g', 'h', 'i', 'k', 'l', 'n', 'o', 'r', 's', 't', 'u', 'v', 'y', 'z', 'ç', 'ö', 'ü', 'ğ', 'ı', 'ş']),
   (['t', 'w', 'q'], ['b', 'c', 'd', 'e', 'f', 'g', 'h', 'i', 'j', 'k', 'l', 'n', 'o', 'r', 's', 't', 'u', 'w', 'x', 'y', 'z', 'õ', 'ŋ', 'ž']),
   (['t', 'z', 'm'], ['b', 'c', 'd', 'e', 'f', 'g', 'h', 'i', 'j', 'k', 'l', 'n', 'o', 'r', 's', 't', 'u', 'w', 'x', 'y', 'z', 'ɣ', 'ḍ', 'ṭ']),
   (['u', 'g'], ['c', 'e', 'g', 'h', 'i', 'n', 'o', 'r', 's', 't', 'u', 'w', 'z', 'ئ', 'ا', 'ب', 'ت', 'ج', 'د', 'ر', 'س', 'ش', 'غ', 'ف', 'ك', 'ل', 'م', 'ن', 'و', 'ى', 'ي', 'پ', 'چ', 'گ', 'ھ', 'ۆ', 'ۇ', 'ۈ', 'ۋ', 'ې', 'ە']),
   (['u', 'k'], ['c', 'g', 't', 'u', 'z', 'а', 'б', 'в', 'г', 'д', 'е', 'ж', 'з', 'и', 'й', 'к', 'л', 'м', 'н', 'о', 'п', 'р', 'с', 'т', 'у', 'х', 'ц', 'ч', 'ь', 'ю', 'я', 'є', 'і', 'ї']),
   (['u', 'r'], ['c', 'g', 't', 'u', 'z', 'آ', 'ئ', 'ا', 'ب', 'ت', 'ج', 'د', 'ر', 'ز', 'س', 'ش', 'ع', 'ف', 'ل', 'م', 'ن', 'و', 'ي', 'ٹ', 'پ', 'چ', 'ڈ', 'ک', 'گ', 'ھ', 'ہ', 'ی', 'ے']),
   (['u', 'z', '-', 'A', 'r', 'a', 'b'], ['c', 'd', 'e', 'g', 'h', 'i', 'k', 'l', 'n', 'o', 'r', 's', 't', 'u', 'w', 'x', 'y', 'z', 'ا', 'ب', 'ت', 'ج', 'د', 'ر', 'س', 'ش', 'ع', 'ف', 'ل', 'م', 'ن', 'ه', 'و', 'پ', 'چ', 'ک', 'گ', 'ی', (Char.ofNat 0x200c)]),
   (['u', 'z', '-', 'C', 'y', 'r', 'l'], ['c', 'e', 'g', 'h', 'i', 'n', 'o', 'r', 's', 't', 'u', 'z', 'а', 'б', 'в', 'г', 'д', 'е', 'ж', 'з', 'и', 'й', 'к', 'л', 'м', 'н', 'о', 'п', 'р', 'с', 'т', 'у', 'ф', 'ч', 'ш', 'э', 'ю', 'я', 'ў', 'қ', 'ҳ']),
   (['u', 'z', '-', 'L', 'a', 't', 'n'], ['b', 'c', 'd', 'e', 'f', 'g', 'h', 'i', 'j', 'k', 'l', 'n', 'o', 'r', 's', 't', 'u', 'v', 'y', 'z', '‘']),
   (['u', 'z'], ['b', 'c', 'd', 'e', 'f', 'g', 'h', 'i', 'j', 'k', 'l', 'n', 'o', 'r', 's', 't', 'u', 'v', 'y', 'z', '‘']),
   (['v', 'i'], ['b', 'c', 'e', 'g', 'h', 'i', 'l', 'n', 'o', 'r', 's', 't', 'u', 'y', 'z', 'à', 'á', 'â', 'ê', 'ì', 'í', 'ô', 'ú', 'ă', 'đ', 'ư', 'ạ', 'ả', 'ầ', 'ậ', 'ể', 'ồ', 'ổ', 'ộ', 'ớ', 'ờ', 'ủ', 'ứ']),
   (['v', 'u', 'n'], ['b', 'c', 'd', 'e', 'f', 'g', 'h', 'i', 'j', 'k', 'l', 'n', 'o', 'r', 's', 't', 'u', 'v', 'w', 'x', 'y', 'z']),
   (['w', 'a', 'e'], ['b', 'c', 'd', 'e', 'f', 'g', 'h', 'i', 'j', 'k', 'l', 'n', 'o', 'r', 's', 't', 'u', 'w', 'x', 'y', 'z', 'á', 'ä', 'í', 'ó', 'ö', 'ü', 'č', 'š']),
   (['x', 'o', 'g'], ['b', 'c', 'd', 'e', 'f', 'g', 'h', 'i', 'j', 'k', 'l', 'n', 'o', 'r', 's', 't', 'u', 'v', 'w', 'x', 'y', 'z']),
   (['y', 'a', 'v'], [',', 'b', 'c', 'd', 'e', 'f', 'g', 'h', 'i', 'k', 'l', 'n', 'o', 'r', 's', 't', 'u', 'w', 'x', 'y', 'z', 'á', 'é', 'í', 'ó', 'ú', 'ŋ', 'ɔ', 'ɛ', (Char.ofNat 0x301)]),
   (['y', 'i'], ['c', 'e', 'g', 'h', 'i', 'k', 'l', 'n', 'o', 'r', 's', 't', 'u', 'w', 'z', 'ַ', 'ָ', 'ּ', 'ֿ', 'א', 'ב', 'ג', 'ד', 'ה', 'ו', 'ז', 'ח', 'ט', 'י', 'ך', 'כ', 'ל', 'ם', 'מ', 'ן', 'נ', 'ס', 'ע', 'פ', 'ץ', 'צ', 'ק', 'ר', 'ש', 'ת', 'ײ']),
   (['y', 'o'], ['b', 'c', 'd', 'e', 'g', 'h', 'i', 'j', 'k', 'l', 'n', 'o', 'r', 's', 't', 'u', 'w', 'x', 'y', 'z', 'à', 'á', 'è', 'é', 'ì', 'í', 'ò', 'ù', 'ú', (Char.ofNat 0x300), (Char.ofNat 0x301), 'ṣ', 'ẹ', 'ọ']),
   (['y', 'u', 'e'], ['c', 'g', 't', 'u', 'z', '一', '三', '上', '下', '二', '五', '今', '個', '六', '分', '午', '呢', '四', '宜', '家', '尋', '小', '年', '日', '星', '時', '月', '期', '秒', '聽', '舊', '週', '鐘']),
   (['z', 'g', 'h'], ['c', 'e', 'g', 'h', 'i', 'k', 'l', 'n', 'o', 'r', 's', 't', 'u', 'w', 'x', 'y', 'z', 'ⴰ', 'ⴱ', 'ⴳ', 'ⴷ', 'ⴹ', 'ⴼ', 'ⴽ', 'ⵉ', 'ⵊ', 'ⵍ', 'ⵎ', 'ⵏ', 'ⵓ', 'ⵔ', 'ⵕ', 'ⵖ', 'ⵙ', 'ⵚ', 'ⵛ', 'ⵜ', 'ⵡ', 'ⵢ', 'ⵣ']),
   (['z', 'h', '-', 'H', 'a', 'n', 's'], ['/', 'c', 'g', 't', 'u', 'z', '一', '七', '三', '上', '下', '个', '九', '二', '五', '今', '八', '六', '分', '刚', '刻', '前', '十', '午', '去', '后', '周', '四', '在', '天', '小', '年', '日', '时', '明', '星', '昨', '月', '期', '本', '此', '现', '秒', '这', '钟', '间']),
   (['z', 'h', '-', 'H', 'a', 'n', 't'], ['c', 'g', 't', 'u', 'z', '一', '三', '上', '下', '二', '五', '今', '個', '六', '分', '午', '去', '四', '在', '天', '小', '年', '日', '明', '星', '昨', '時', '月', '期', '本', '現', '秒', '這', '週', '鐘']),
   (['z', 'h'], ['/', 'c', 'g', 't', 'u', 'z', '一', '七', '三', '上', '下', '个', '九', '二', '五', '今', '個', '八', '六', '分', '刚', '刻', '前', '十', '午', '去', '后', '周', '四', '在', '天', '小', '年', '拜', '日', '时', '明', '星', '昨', '月', '期', '本', '此', '现', '礼', '秒', '约', '这', '钟', '间']),
   (['z', 'u'], ['b', 'c', 'd', 'e', 'f', 'g', 'h', 'i', 'j', 'k', 'l', 'n', 'o', 'r', 's', 't', 'u', 'v', 'w', 'y', 'z'])]

end Verif.Data
