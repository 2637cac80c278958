{
 "M002": "C20",
 "M004": "C20",
 "M005": "C21,C10",
 "M006": "C29",
 "M007": "C20,C29",
 "M008": "C30",
 "M009": "C30",
 "M010": "C04-C06",
 "M011": "C30,C37",
 "M012": "C19",
 "M013": "C14",
 "M015": "C18,C14",
 "M016": "C15",
 "M019": "C04-C06",
 "M022": "C23",
 "M024": "C12",
 "M025": "C12",
 "M026": "C24,C04-C06",
 "M029": "C09",
 "M030": "C07-C09",
 "M061": "C15",
 "M068": "C34",
 "M089": "C24",
 "M092": "C36",
 "M093": "C21",
 "M098": "C09",
 "M102": "C31,C09",
 "M111": "C27",
 "M021": "C30",
 "M047": "C13",
 "M051": "C04",
 "M115": "C23",
 "M116": "C04-C06",
 "M117": "C01,C04-C06",
 "M121": "C24,C05",
 "M122": "C24,C06",
 "M114": "C22",
 "G080": "C53, C32 (negation)",
 "G084": "none (no visible difference)"
}