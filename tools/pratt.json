{
"bn128": {
"n": "21888242871839275222246405745257275088548364400416034343698204186575808495617",
"certs": {
"5501": [
2,
[
[
2,
2
],
[
5,
3
],
[
11,
1
]
]
],
"11003": [
2,
[
[
2,
1
],
[
5501,
1
]
]
],
"237073": [
15,
[
[
2,
4
],
[
3,
1
],
[
11,
1
],
[
449,
1
]
]
],
"3691": [
2,
[
[
2,
1
],
[
3,
2
],
[
5,
1
],
[
41,
1
]
]
],
"4999": [
3,
[
[
2,
1
],
[
3,
1
],
[
7,
2
],
[
17,
1
]
]
],
"405928799": [
22,
[
[
2,
1
],
[
11,
1
],
[
3691,
1
],
[
4999,
1
]
]
],
"93001": [
14,
[
[
2,
3
],
[
3,
1
],
[
5,
3
],
[
31,
1
]
]
],
"12048837557": [
2,
[
[
2,
2
],
[
7,
2
],
[
661,
1
],
[
93001,
1
]
]
],
"5156902474397": [
2,
[
[
2,
2
],
[
107,
1
],
[
12048837557,
1
]
]
],
"1670836401704629": [
2,
[
[
2,
2
],
[
3,
4
],
[
5156902474397,
1
]
]
],
"20963": [
2,
[
[
2,
1
],
[
47,
1
],
[
223,
1
]
]
],
"41927": [
5,
[
[
2,
1
],
[
20963,
1
]
]
],
"1593227": [
2,
[
[
2,
1
],
[
19,
1
],
[
41927,
1
]
]
],
"1637": [
2,
[
[
2,
2
],
[
409,
1
]
]
],
"639533339": [
2,
[
[
2,
1
],
[
229,
1
],
[
853,
1
],
[
1637,
1
]
]
],
"65865678001877903": [
5,
[
[
2,
1
],
[
83,
1
],
[
379,
1
],
[
1637,
1
],
[
639533339,
1
]
]
],
"13818364434197438864469338081": [
3,
[
[
2,
5
],
[
5,
1
],
[
823,
1
],
[
1593227,
1
],
[
65865678001877903,
1
]
]
],
"21888242871839275222246405745257275088548364400416034343698204186575808495617": [
5,
[
[
2,
28
],
[
3,
2
],
[
13,
1
],
[
29,
1
],
[
983,
1
],
[
11003,
1
],
[
237073,
1
],
[
405928799,
1
],
[
1670836401704629,
1
],
[
13818364434197438864469338081,
1
]
]
]
}
},
"bls381": {
"n": "52435875175126190479447740508185965837690552500527637822603658699938581184513",
"certs": {
"10177": [
7,
[
[
2,
6
],
[
3,
1
],
[
53,
1
]
]
],
"20921": [
3,
[
[
2,
3
],
[
5,
1
],
[
523,
1
]
]
],
"125527": [
5,
[
[
2,
1
],
[
3,
1
],
[
20921,
1
]
]
],
"47737": [
5,
[
[
2,
3
],
[
3,
3
],
[
13,
1
],
[
17,
1
]
]
],
"859267": [
2,
[
[
2,
1
],
[
3,
2
],
[
47737,
1
]
]
],
"1607": [
5,
[
[
2,
1
],
[
11,
1
],
[
73,
1
]
]
],
"906349": [
2,
[
[
2,
2
],
[
3,
1
],
[
47,
1
],
[
1607,
1
]
]
],
"2508409": [
11,
[
[
2,
3
],
[
3,
4
],
[
7,
2
],
[
79,
1
]
]
],
"18329": [
3,
[
[
2,
3
],
[
29,
1
],
[
79,
1
]
]
],
"2529403": [
2,
[
[
2,
1
],
[
3,
1
],
[
23,
1
],
[
18329,
1
]
]
],
"609743": [
5,
[
[
2,
1
],
[
7,
1
],
[
97,
1
],
[
449,
1
]
]
],
"52437899": [
2,
[
[
2,
1
],
[
43,
1
],
[
609743,
1
]
]
],
"110573": [
3,
[
[
2,
2
],
[
7,
1
],
[
11,
1
],
[
359,
1
]
]
],
"2653753": [
5,
[
[
2,
3
],
[
3,
1
],
[
110573,
1
]
]
],
"63690073": [
7,
[
[
2,
3
],
[
3,
1
],
[
2653753,
1
]
]
],
"254760293": [
2,
[
[
2,
2
],
[
63690073,
1
]
]
],
"52435875175126190479447740508185965837690552500527637822603658699938581184513": [
7,
[
[
2,
32
],
[
3,
1
],
[
11,
1
],
[
19,
1
],
[
10177,
1
],
[
125527,
1
],
[
859267,
1
],
[
906349,
2
],
[
2508409,
1
],
[
2529403,
1
],
[
52437899,
1
],
[
254760293,
2
]
]
]
}
},
"bls377": {
"n": "8444461749428370424248824938781546531375899335154063827935233455917409239041",
"certs": {
"3511": [
7,
[
[
2,
1
],
[
3,
3
],
[
5,
1
],
[
13,
1
]
]
],
"126397": [
5,
[
[
2,
2
],
[
3,
2
],
[
3511,
1
]
]
],
"1832756501": [
2,
[
[
2,
2
],
[
5,
3
],
[
29,
1
],
[
126397,
1
]
]
],
"49484425527001": [
14,
[
[
2,
3
],
[
3,
3
],
[
5,
3
],
[
1832756501,
1
]
]
],
"958612291309063373": [
2,
[
[
2,
2
],
[
29,
1
],
[
167,
1
],
[
49484425527001,
1
]
]
],
"9586122913090633729": [
11,
[
[
2,
46
],
[
3,
1
],
[
7,
1
],
[
13,
1
],
[
499,
1
]
]
],
"8444461749428370424248824938781546531375899335154063827935233455917409239041": [
22,
[
[
2,
47
],
[
3,
1
],
[
5,
1
],
[
7,
1
],
[
13,
1
],
[
499,
1
],
[
958612291309063373,
1
],
[
9586122913090633729,
2
]
]
]
}
},
"pallas": {
"n": "28948022309329048855892746252171976963363056481941560715954676764349967630337",
"certs": {
"14923": [
2,
[
[
2,
1
],
[
3,
2
],
[
829,
1
]
]
],
"1973": [
2,
[
[
2,
2
],
[
17,
1
],
[
29,
1
]
]
],
"6229": [
2,
[
[
2,
2
],
[
3,
2
],
[
173,
1
]
]
],
"24917": [
2,
[
[
2,
2
],
[
6229,
1
]
]
],
"149503": [
3,
[
[
2,
1
],
[
3,
1
],
[
24917,
1
]
]
],
"897019": [
2,
[
[
2,
1
],
[
3,
1
],
[
149503,
1
]
]
],
"417677162933": [
2,
[
[
2,
2
],
[
59,
1
],
[
1973,
1
],
[
897019,
1
]
]
],
"539204044132271846773": [
5,
[
[
2,
2
],
[
3,
5
],
[
89,
1
],
[
14923,
1
],
[
417677162933,
1
]
]
],
"2531": [
2,
[
[
2,
1
],
[
5,
1
],
[
11,
1
],
[
23,
1
]
]
],
"19267": [
3,
[
[
2,
1
],
[
3,
1
],
[
13,
2
],
[
19,
1
]
]
],
"115603": [
2,
[
[
2,
1
],
[
3,
1
],
[
19267,
1
]
]
],
"3767": [
5,
[
[
2,
1
],
[
7,
1
],
[
269,
1
]
]
],
"1197907": [
3,
[
[
2,
1
],
[
3,
1
],
[
53,
1
],
[
3767,
1
]
]
],
"6942563": [
2,
[
[
2,
1
],
[
11,
1
],
[
17,
1
],
[
19,
1
],
[
977,
1
]
]
],
"41655379": [
2,
[
[
2,
1
],
[
3,
1
],
[
6942563,
1
]
]
],
"22160661629": [
3,
[
[
2,
2
],
[
7,
1
],
[
19,
1
],
[
41655379,
1
]
]
],
"413527": [
3,
[
[
2,
1
],
[
3,
1
],
[
41,
3
]
]
],
"25741": [
6,
[
[
2,
2
],
[
3,
2
],
[
5,
1
],
[
11,
1
],
[
13,
1
]
]
],
"772231": [
6,
[
[
2,
1
],
[
3,
1
],
[
5,
1
],
[
25741,
1
]
]
],
"325086459374267": [
2,
[
[
2,
1
],
[
509,
1
],
[
413527,
1
],
[
772231,
1
]
]
],
"8999194758858563409123804352480028797519453": [
2,
[
[
2,
2
],
[
3,
4
],
[
11,
1
],
[
2531,
1
],
[
115603,
1
],
[
1197907,
1
],
[
22160661629,
1
],
[
325086459374267,
1
]
]
],
"28948022309329048855892746252171976963363056481941560715954676764349967630337": [
5,
[
[
2,
32
],
[
3,
1
],
[
463,
1
],
[
539204044132271846773,
1
],
[
8999194758858563409123804352480028797519453,
1
]
]
]
}
}
}