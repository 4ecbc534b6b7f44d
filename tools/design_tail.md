
## Properties that are false of the code

Where the code does not do what a user relies on, the failure is proved of the model on a concrete input, and what does
hold is proved in general.  In short:

- RequiredParts: `validate` accepts only names that are *not* day, month, year (C26).
- StrictParsing makes the no-separator parser refuse everything (C14); it is ignored by formats given by the caller (C36).
- Mathematical digits (U+1D7D8 ...) become other characters (C29).
- A year written 0000 or 0001 is lost (C03); with a year-first order an unpadded date is read differently from a padded
  one, with DMY order `2015-03-05` is 3 May (C03).
- Dates without year, day or month chosen from preferences can end up on the wrong side of now (C06, C08, C09).
- Relative amounts overflow int64 (C18); decimals can lose a second (C19); in an hour shown twice by the clock
  "10 minutes ago" can lie in the future (C44).
- `1 day, 2 hour ago 10:30`: the comma makes the time of day be ignored (C16).
- Zones: result of PopTzOffset depends on Go's random map order; `15-10-1200` has "a zone" (C20); DefaultTimezone with
  changing offset is looked up at the wrong instant (C21); an hour skipped by the local clock is lost (C45).
- The no-separator parser reads 12251999 (MDY) as the year 1225 (C15), and never succeeds with the built-in order of
  Bulgarian, Bosnian, Croatian, Hungarian, Korean, Serbian (C39).
- Search panics on Spanish texts with a leading `¿` and on single dictionary words of Cantonese and Chinese (C33); a split
  without any usable piece wins over a split with dates (C42).
- Search ignores DateOrder, cuts dates with dots, does not find "(March 5, 2015)" (it asks the parser for "marchh 5, 2015)"), and reports no
  language for "3/5/2015!" with English as the only language (C49).
- In Finnish the "T" of `2015-03-05T10:11:12` is "hour", and the text means five hours ago (C45).
- Slovak "pozajtra" and Chinese "后天" (the day after tomorrow) become "in 2 days", which the relative parser does not read: it knows "day"
  (C55, proved for Slovak).
- Regional English locales refuse dates with month names (C43).
- Jalali day 31 is refused, the 30th of an even Hijri month is clipped, a Jalali day before the month name may be taken as
  a year (C35).
- Negative timestamps: the fraction is added (C13).
- Layouts with the day of the year, or a day without month, or 29 February without a year are not read back (C36).
- French "5 sept 2015" is 5 July 2015 (C53); in Bambara, Lower and Upper Sorbian and Hawaiian the abbreviation "now" of November is
  taken for "now" (not proved).
- The Unicode transformer is a package variable with mutable state, used without a lock: two calls of ParseJalali at the same time (or of
  Parse on two Parser objects) can mix up their texts, so that one returns the date of the other (C54).
- Even under StrictParsing a date that does not exist becomes another one: "31 April 2015" is 30 April, "29 February 2015" is 29 February
  2016 (C59).
- "5.12 2015" is read as the time 5:12 of a day of 2015, and "am" or "pm" counts inside any word: "May 2015 10 Hampton" is 10 o'clock (C60).
- The relative parser only looks at how words begin ("income 2 day" is two days ago), and of two amounts for a unit only the last counts:
  "1 week, 2 day 3 day ago" is ten days ago (C61).
- A text that says nothing is not refused: "year" or "hour, minute" gives the beginning of today; and a number taken for the day is dropped
  when another one turns out to be the day: "5 6 May 2015" is 6 May (C62).
- In a search without a current time, a date in a cut of a chunk that is not chosen is not found, yet it becomes the current time of all that
  is read after it (C41, `C41_rejected_date_stays`).
